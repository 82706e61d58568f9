import Verif.Spec.Input
import Mathlib.Data.List.Infix
import Mathlib.Data.Nat.Digits.Lemmas
import Mathlib.Tactic.Ring
import Mathlib.Tactic.Linarith
import Mathlib.Tactic.Push
import Mathlib.Tactic.IntervalCases
import Mathlib.Tactic.NormNum

/-!
# Lemmas on text, numerals and the reader
-/

namespace Verif

/-! ## Splitting at white space -/

theorem whites_eq (c : Char) : whites.contains c.toNat = isWs c := by
  rw [Bool.eq_iff_iff]
  simp only [whites, isWs, List.contains_cons, List.contains_nil, Bool.or_false, Bool.or_eq_true, beq_iff_eq,
    Bool.and_eq_true, decide_eq_true_eq]
  omega

theorem isWs_blank : isWs ' ' = true := by decide

theorem digit_not_special {d : Nat} (h : d < 10) : Nat.digitChar d ≠ '+' ∧ Nat.digitChar d ≠ '-' ∧
    Nat.digitChar d ≠ '.' ∧ Nat.digitChar d ≠ 'e' ∧ Nat.digitChar d ≠ 'E' ∧ isWs (Nat.digitChar d) = false := by
  interval_cases d <;> decide

attribute [local irreducible] isWs

theorem splitWs_fields (line : Text) : splitWs line = fieldsOf line := by
  unfold fieldsOf
  simp only [whites_eq]
  induction line with
  | nil => rfl
  | cons c cs ih =>
    rw [List.splitOnP_cons_eq_if_modifyHead, splitWs]
    by_cases hc : isWs c
    · simp only [hc, if_true, ih]
      rw [List.filter_cons_of_neg (by simp)]
    · simp only [hc, if_false, Bool.false_eq_true, ih]
      cases cs with
      | nil => rfl
      | cons d ds =>
        rw [List.splitOnP_cons_eq_if_modifyHead]
        by_cases hd : isWs d
        · simp only [hd, if_true]
          rw [List.filter_cons_of_neg (by simp), List.modifyHead_cons, List.filter_cons_of_pos (by simp)]
          cases (List.filter (fun w => !List.isEmpty w) (List.splitOnP (fun c => isWs c) ds)) <;> simp [consField, hd]
        · simp only [hd, if_false, Bool.false_eq_true]
          cases h : List.splitOnP (fun c => isWs c) ds with
          | nil => exact absurd h (List.splitOnP_ne_nil _ _)
          | cons w ws =>
            simp only [List.modifyHead_cons]
            rw [List.filter_cons_of_pos (by simp), List.filter_cons_of_pos (by simp)]
            simp [consField, hd]

theorem fieldsOf_skip (c : Char) (cs : Text) (hc : isWs c = true) : fieldsOf (c :: cs) = fieldsOf cs := by
  rw [← splitWs_fields, ← splitWs_fields, splitWs, if_pos hc]

theorem fieldsOf_word (w rest : Text) (hw : w ≠ []) (hn : ∀ c ∈ w, isWs c = false)
    (hr : ∀ c, rest.head? = some c → isWs c = true) : fieldsOf (w ++ rest) = w :: fieldsOf rest := by
  simp only [← splitWs_fields]
  induction w with
  | nil => exact absurd rfl hw
  | cons c cs ih =>
    rw [List.cons_append, splitWs]
    have hc := hn c (by simp)
    simp only [hc, Bool.false_eq_true, if_false]
    cases cs with
    | nil =>
      rw [List.nil_append]
      cases rest with
      | nil => rfl
      | cons d ds =>
        have := hr d rfl
        cases splitWs (d :: ds) <;> simp [consField, this]
    | cons d ds =>
      rw [ih (by simp) (fun c' h' => hn c' (List.mem_cons_of_mem _ h')), List.cons_append]
      have hd := hn d (by simp)
      simp [consField, hd]

/-- Fields written to the right of a blank come apart again. -/
theorem fieldsOf_padded (l : List (Nat × Text)) (h : ∀ p ∈ l, p.2 ≠ [] ∧ ∀ c ∈ p.2, isWs c = false)
    (hf : ∀ p ∈ l.tail, p.2.length < p.1) :
    fieldsOf (l.flatMap fun p => padLeft p.1 p.2) = l.map (·.2) := by
  have blanks : ∀ (k : Nat) (t : Text), fieldsOf (List.replicate k ' ' ++ t) = fieldsOf t := by
    intro k t
    induction k with
    | zero => rfl
    | succ k ih => rw [List.replicate_succ, List.cons_append, fieldsOf_skip _ _ isWs_blank, ih]
  induction l with
  | nil => rfl
  | cons p l ih =>
    rw [List.flatMap_cons, List.map_cons]
    unfold padLeft
    rw [List.append_assoc, blanks, fieldsOf_word _ _ (h p (by simp)).1 (h p (by simp)).2]
    · rw [show (l.flatMap fun p => List.replicate (p.1 - p.2.length) ' ' ++ p.2) =
        (l.flatMap fun p => padLeft p.1 p.2) from rfl, ih (fun q hq => h q (by simp [hq]))
        (fun q hq => hf q (List.mem_of_mem_tail hq))]
    · intro c hc
      cases l with
      | nil => simp at hc
      | cons q l =>
        have := hf q (by simp)
        rw [List.flatMap_cons] at hc
        obtain ⟨k, hk⟩ : ∃ k, q.1 - q.2.length = k + 1 := ⟨q.1 - q.2.length - 1, by omega⟩
        rw [hk, List.replicate_succ] at hc
        simp only [List.cons_append, List.head?_cons, Option.some.injEq] at hc
        subst hc
        exact isWs_blank

/-! ## Keywords -/

theorem contains_iff (line key : Text) : contains line key = true ↔ key <:+: line := by
  induction line with
  | nil =>
    rw [contains, List.infix_nil, List.isEmpty_iff]
  | cons c cs ih =>
    rw [contains, Bool.or_eq_true, List.infix_cons_iff, ih, List.isPrefixOf_iff_prefix]

/-! ## Numerals -/

theorem digitVal_iff (c : Char) (d : Nat) : digitVal c = some d ↔ d < 10 ∧ c = Nat.digitChar d := by
  have h0 : '0'.toNat = 48 := rfl
  have h9 : '9'.toNat = 57 := rfl
  unfold digitVal
  rw [h0, h9]
  constructor
  · intro h
    split at h
    · rename_i hc
      have hd : c.toNat = 48 + d := by have := Option.some.inj h; omega
      have hlt : d < 10 := by omega
      refine ⟨hlt, Char.ext (UInt32.toNat_inj.1 ?_)⟩
      change c.toNat = (Nat.digitChar d).toNat
      rw [hd]
      interval_cases d <;> rfl
    · cases h
  · rintro ⟨h, rfl⟩
    interval_cases d <;> rfl

theorem digitsVal_snoc (s : Text) (c : Char) :
    digitsVal (s ++ [c]) = (digitsVal s).bind fun n => (digitVal c).map (10 * n + ·) := by
  unfold digitsVal
  rw [List.foldlM_append]
  cases List.foldlM (fun n c => do return 10 * n + (← digitVal c)) 0 s with
  | none => rfl
  | some n =>
    cases h : digitVal c <;> simp [h]

theorem digitsVal_iff (s : Text) (n : Nat) :
    digitsVal s = some n ↔ ∃ ds, Digits s ds ∧ n = Nat.ofDigits 10 ds.reverse := by
  induction s using List.reverseRecOn generalizing n with
  | nil =>
    simp only [digitsVal, List.foldlM_nil, Digits]
    constructor
    · intro h
      obtain rfl := Option.some.inj h
      exact ⟨[], by simp⟩
    · rintro ⟨ds, ⟨-, h⟩, rfl⟩
      cases ds with
      | nil => rfl
      | cons d ds => cases h
  | append_singleton s c ih =>
    simp only [digitsVal_snoc, Option.bind_eq_some_iff, Option.map_eq_some_iff, ih]
    constructor
    · rintro ⟨m, ⟨ds, ⟨h1, h2⟩, rfl⟩, d, hd, rfl⟩
      obtain ⟨hd', rfl⟩ := (digitVal_iff _ _).1 hd
      refine ⟨ds ++ [d], ⟨fun x hx => ?_, by simp [h2]⟩, ?_⟩
      · rcases List.mem_append.1 hx with hx | hx
        · exact h1 x hx
        · rw [List.mem_singleton.1 hx]; exact hd'
      · rw [List.reverse_append, List.reverse_singleton, List.singleton_append, Nat.ofDigits_cons, add_comm]
    · rintro ⟨ds, ⟨h1, h2⟩, rfl⟩
      rcases List.eq_nil_or_concat ds with rfl | ⟨ds, d, rfl⟩
      · simp at h2
      · rw [List.concat_eq_append] at h1 h2 ⊢
        rw [List.map_append] at h2
        obtain ⟨h3, h4⟩ := List.append_inj' h2 rfl
        refine ⟨_, ⟨ds, ⟨fun x hx => h1 x (by simp [hx]), h3⟩, rfl⟩, d,
          (digitVal_iff _ _).2 ⟨h1 d (by simp), by simpa using h4⟩, ?_⟩
        rw [List.reverse_append, List.reverse_singleton, List.singleton_append, Nat.ofDigits_cons, add_comm]

theorem parseNat_iff (s : Text) (n : Nat) : parseNat s = some n ↔ Numeral s n := by
  unfold parseNat Numeral
  cases s with
  | nil =>
    simp only [List.isEmpty_nil, if_true, false_iff, reduceCtorEq]
    rintro ⟨ds, h1, ⟨-, h2⟩, -⟩
    cases ds with
    | nil => exact h1 rfl
    | cons d ds => cases h2
  | cons c s =>
    simp only [List.isEmpty_cons, Bool.false_eq_true, if_false, digitsVal_iff]
    constructor
    · rintro ⟨ds, h1, h2⟩
      refine ⟨ds, ?_, h1, h2⟩
      rintro rfl
      cases h1.2
    · rintro ⟨ds, -, h1, h2⟩
      exact ⟨ds, h1, h2⟩

/-- No numeral starts with a sign. -/
theorem numeral_head {s : Text} {n : Nat} (h : Numeral s n) : ∃ d < 10, s.head? = some (Nat.digitChar d) := by
  obtain ⟨ds, h1, ⟨h2, rfl⟩, -⟩ := h
  cases ds with
  | nil => exact absurd rfl h1
  | cons d ds => exact ⟨d, h2 d (by simp), rfl⟩

theorem numeral_no_sign {s : Text} {n : Nat} (h : Numeral s n) : s.head? ≠ some '+' ∧ s.head? ≠ some '-' := by
  obtain ⟨d, hd, h⟩ := numeral_head h
  rw [h]
  exact ⟨fun h' => (digit_not_special hd).1 (Option.some.inj h'), fun h' => (digit_not_special hd).2.1 (Option.some.inj h')⟩

/-- Dropping an optional plus sign. -/
theorem plus_iff (s : Text) (n : Nat) : Numeral (if s.head? = some '+' then s.tail else s) n ↔
    Numeral s n ∨ ∃ u, s = '+' :: u ∧ Numeral u n := by
  split
  · rename_i h
    cases s with
    | nil => cases h
    | cons c s =>
      obtain rfl := Option.some.inj h
      constructor
      · exact fun h => .inr ⟨s, rfl, h⟩
      · rintro (h | ⟨u, h, hu⟩)
        · exact absurd rfl (numeral_no_sign h).1
        · cases h; exact hu
  · rename_i h
    constructor
    · exact .inl
    · rintro (h' | ⟨u, rfl, -⟩)
      · exact h'
      · exact absurd rfl h

theorem parseUsize_iff (s : Text) (n : Nat) : parseUsize s = some n ↔ NatField s n := by
  unfold parseUsize NatField
  simp only [Option.bind_eq_bind, Option.bind_eq_some_iff, parseNat_iff, plus_iff]
  constructor
  · rintro ⟨m, hm, h⟩
    split at h
    · obtain rfl := Option.some.inj h; exact ⟨hm, ‹_›⟩
    · cases h
  · rintro ⟨h, hn⟩
    exact ⟨n, h, if_pos hn⟩

/-- A signed numeral, by its first character. -/
theorem intNumeral_iff (s : Text) (n : Int) : IntNumeral s n ↔
    (s.head? = some '-' ∧ ∃ k : Nat, Numeral s.tail k ∧ n = -k) ∨
    (s.head? ≠ some '-' ∧ ∃ k : Nat, Numeral (if s.head? = some '+' then s.tail else s) k ∧ n = k) := by
  constructor
  · rintro ⟨k, ⟨h, rfl⟩ | ⟨u, hu, ⟨rfl, rfl⟩ | ⟨rfl, rfl⟩⟩⟩
    · exact .inr ⟨(numeral_no_sign h).2, k, (plus_iff _ _).2 (.inl h), rfl⟩
    · exact .inr ⟨by simp, k, (plus_iff _ _).2 (.inr ⟨u, rfl, hu⟩), rfl⟩
    · exact .inl ⟨rfl, k, hu, rfl⟩
  · rintro (⟨h, k, hk, rfl⟩ | ⟨h, k, hk, rfl⟩)
    · cases s with
      | nil => cases h
      | cons c s =>
        obtain rfl := Option.some.inj h
        exact ⟨k, .inr ⟨s, hk, .inr ⟨rfl, rfl⟩⟩⟩
    · rcases (plus_iff _ _).1 hk with hk | ⟨u, rfl, hu⟩
      · exact ⟨k, .inl ⟨hk, rfl⟩⟩
      · exact ⟨k, .inr ⟨u, hu, .inl ⟨rfl, rfl⟩⟩⟩

theorem parseIsize_iff (s : Text) (n : Int) : parseIsize s = some n ↔ IntField s n := by
  unfold parseIsize IntField
  rw [intNumeral_iff]
  by_cases h : s.head? = some '-'
  · simp only [h, if_true, Option.bind_eq_bind, Option.bind_eq_some_iff, parseNat_iff, true_and, ne_eq, not_true,
      false_and, or_false]
    constructor
    · rintro ⟨k, hk, h⟩
      split at h
      · obtain rfl := Option.some.inj h
        exact ⟨⟨k, hk, rfl⟩, by omega, by omega⟩
      · cases h
    · rintro ⟨⟨k, hk, rfl⟩, h1, h2⟩
      exact ⟨k, hk, if_pos (by omega)⟩
  · simp only [h, if_false, Option.bind_eq_bind, Option.bind_eq_some_iff, parseNat_iff, ne_eq, not_false_eq_true,
      false_and, false_or, true_and]
    constructor
    · rintro ⟨k, hk, h⟩
      split at h
      · obtain rfl := Option.some.inj h
        exact ⟨⟨k, hk, rfl⟩, by omega, by omega⟩
      · cases h
    · rintro ⟨⟨k, hk, rfl⟩, h1, h2⟩
      exact ⟨k, hk, if_pos (by omega)⟩

theorem digits_append (a b : Text) (ds : List Nat) :
    Digits (a ++ b) ds ↔ ∃ is fs, ds = is ++ fs ∧ Digits a is ∧ Digits b fs := by
  constructor
  · rintro ⟨h1, h2⟩
    have hl : a.length + b.length = ds.length := by rw [← List.length_append, h2, List.length_map]
    refine ⟨ds.take a.length, ds.drop a.length, (List.take_append_drop _ _).symm,
      ⟨fun d hd => h1 d (List.mem_of_mem_take hd), ?_⟩, ⟨fun d hd => h1 d (List.mem_of_mem_drop hd), ?_⟩⟩
    · rw [List.map_take, ← h2, List.take_left]
    · rw [List.map_drop, ← h2, List.drop_left]
  · rintro ⟨is, fs, rfl, ⟨h1, rfl⟩, ⟨h2, rfl⟩⟩
    refine ⟨fun d hd => ?_, by simp⟩
    rcases List.mem_append.1 hd with hd | hd
    · exact h1 d hd
    · exact h2 d hd

theorem digits_mem {t : Text} {ds : List Nat} (h : Digits t ds) {c : Char} (hc : c ∈ t) :
    c ≠ '+' ∧ c ≠ '-' ∧ c ≠ '.' ∧ c ≠ 'e' ∧ c ≠ 'E' ∧ isWs c = false := by
  obtain ⟨h1, rfl⟩ := h
  obtain ⟨d, hd, rfl⟩ := List.mem_map.1 hc
  exact digit_not_special (h1 d hd)

theorem digits_length {t : Text} {ds : List Nat} (h : Digits t ds) : t.length = ds.length := by
  rw [h.2, List.length_map]

theorem parseSigned_iff (u : Text) (e : Int) : parseSigned u = some e ↔ IntNumeral u e := by
  unfold parseSigned
  rw [intNumeral_iff]
  by_cases h : u.head? = some '-' <;>
  simp only [h, if_true, if_false, Option.map_eq_some_iff, parseNat_iff, ne_eq, not_true, not_false_eq_true, true_and,
    false_and, or_false, false_or, eq_comm (a := e)]

theorem parseExp_iff (ex : Text) (e : Int) :
    parseExp ex = some e ↔ ex = [] ∧ e = 0 ∨ ∃ c u, ex = c :: u ∧ IntNumeral u e := by
  cases ex with
  | nil => simp [parseExp, eq_comm]
  | cons c u => simp [parseExp, parseSigned_iff]

theorem parseUnsigned_iff (s : Text) (q : ℚ) : parseUnsigned s = some q ↔ Fraction s q := by
  unfold parseUnsigned
  simp only [Option.bind_eq_bind, Option.bind_eq_some_iff, Option.pure_def, Option.some.injEq]
  constructor
  · rintro ⟨m, hm, e, he, rfl⟩
    set mant := s.takeWhile fun c => c ≠ 'e' ∧ c ≠ 'E' with hmant
    set ex := s.dropWhile fun c => c ≠ 'e' ∧ c ≠ 'E' with hex
    have hs : s = mant ++ ex := (List.takeWhile_append_dropWhile).symm
    set ip := mant.takeWhile (· ≠ '.') with hip
    set rest := mant.dropWhile (· ≠ '.') with hrest
    have hm' : mant = ip ++ rest := (List.takeWhile_append_dropWhile).symm
    obtain ⟨ds, hne, hd, rfl⟩ := (parseNat_iff _ _).1 hm
    obtain ⟨is, fs, rfl, hi, hf⟩ := (digits_append _ _ _).1 hd
    refine ⟨ip, rest.tail, ex, is, fs, e, hi, hf, hne, ?_, ?_, ?_⟩
    · rcases (parseExp_iff _ _).1 he with h | ⟨c, u, h, hu⟩
      · exact .inl h
      · refine .inr ⟨c, u, h, ?_, hu⟩
        have := List.head?_dropWhile_not (fun c => decide (c ≠ 'e' ∧ c ≠ 'E')) s
        rw [← hex, h] at this
        simp at this
        tauto
    · cases hr : rest with
      | nil =>
        refine .inl ⟨by rw [List.tail_nil, List.append_nil, hs, hm', hr, List.append_nil], ?_⟩
        rw [hr] at hf
        exact List.eq_nil_of_length_eq_zero (digits_length hf).symm
      | cons c u =>
        right
        have := List.head?_dropWhile_not (fun c => decide (c ≠ '.')) mant
        rw [← hrest, hr] at this
        simp at this
        rw [hs, hm', hr, this, List.tail_cons]
    · rw [digits_length hf]
  · rintro ⟨ip, fp, ex, is, fs, e, hi, hf, hne, hex, ht, rfl⟩
    have hex0 : ∀ c ∈ ex.head?, ¬ (c ≠ 'e' ∧ c ≠ 'E') := by
      rcases hex with ⟨rfl, -⟩ | ⟨c, u, rfl, hc, -⟩
      · intro c hc; cases hc
      · intro c' hc'
        obtain rfl := Option.some.inj hc'
        tauto
    have split1 : ∀ m : Text, (∀ c ∈ m, c ≠ 'e' ∧ c ≠ 'E') →
        ((m ++ ex).takeWhile fun c => c ≠ 'e' ∧ c ≠ 'E') = m ∧ ((m ++ ex).dropWhile fun c => c ≠ 'e' ∧ c ≠ 'E') = ex := by
      intro m hm
      rw [List.takeWhile_append_of_pos (by simpa using hm), List.dropWhile_append_of_pos (by simpa using hm)]
      cases ex with
      | nil => simp
      | cons c u =>
        have := hex0 c rfl
        rw [List.takeWhile_cons_of_neg (by simpa using this), List.dropWhile_cons_of_neg (by simpa using this)]
        simp
    have hie : ∀ c ∈ ip, c ≠ 'e' ∧ c ≠ 'E' := fun c hc => ⟨(digits_mem hi hc).2.2.2.1, (digits_mem hi hc).2.2.2.2.1⟩
    have hfe : ∀ c ∈ fp, c ≠ 'e' ∧ c ≠ 'E' := fun c hc => ⟨(digits_mem hf hc).2.2.2.1, (digits_mem hf hc).2.2.2.2.1⟩
    have hip : ∀ c ∈ ip, c ≠ '.' := fun c hc => (digits_mem hi hc).2.2.1
    have hexp : parseExp ex = some e := by
      rw [parseExp_iff]
      rcases hex with h | ⟨c, u, h, -, hu⟩
      · exact .inl h
      · exact .inr ⟨c, u, h, hu⟩
    have hnum : parseNat (ip ++ fp) = some (Nat.ofDigits 10 (is ++ fs).reverse) := by
      rw [parseNat_iff]
      exact ⟨is ++ fs, hne, (digits_append _ _ _).2 ⟨is, fs, rfl, hi, hf⟩, rfl⟩
    rcases ht with ⟨rfl, rfl⟩ | rfl
    · obtain rfl : fp = [] := List.eq_nil_of_length_eq_zero (digits_length hf)
      rw [List.append_nil]
      obtain ⟨e1, e2⟩ := split1 ip hie
      rw [e1, e2]
      have e3 : ip.takeWhile (· ≠ '.') = ip := by
        have := List.takeWhile_append_of_pos (p := fun c => decide (c ≠ '.')) (l₁ := ip) (l₂ := []) (by simpa using hip)
        simpa using this
      have e4 : ip.dropWhile (· ≠ '.') = [] := by
        have := List.dropWhile_append_of_pos (p := fun c => decide (c ≠ '.')) (l₁ := ip) (l₂ := []) (by simpa using hip)
        simpa using this
      rw [e3, e4]
      exact ⟨_, hnum, e, hexp, rfl⟩
    · obtain ⟨e1, e2⟩ := split1 (ip ++ '.' :: fp) (by
        intro c hc
        rcases List.mem_append.1 hc with hc | hc
        · exact hie c hc
        · rcases List.mem_cons.1 hc with rfl | hc
          · decide
          · exact hfe c hc)
      rw [e1, e2]
      have e3 : (ip ++ '.' :: fp).takeWhile (· ≠ '.') = ip := by
        rw [List.takeWhile_append_of_pos (by simpa using hip), List.takeWhile_cons_of_neg (by simp), List.append_nil]
      have e4 : (ip ++ '.' :: fp).dropWhile (· ≠ '.') = '.' :: fp := by
        rw [List.dropWhile_append_of_pos (by simpa using hip), List.dropWhile_cons_of_neg (by simp)]
      rw [e3, e4, List.tail_cons]
      exact ⟨_, hnum, e, hexp, by rw [digits_length hf]⟩

/-- No fraction starts with a sign. -/
theorem fraction_no_sign {s : Text} {q : ℚ} (h : Fraction s q) : s.head? ≠ some '+' ∧ s.head? ≠ some '-' := by
  obtain ⟨ip, fp, ex, is, fs, e, hi, hf, hne, -, ht, -⟩ := h
  cases ip with
  | nil =>
    rcases ht with ⟨rfl, rfl⟩ | rfl
    · obtain rfl : is = [] := List.eq_nil_of_length_eq_zero (digits_length hi).symm
      exact absurd rfl hne
    · simp
  | cons c ip =>
    obtain ⟨h1, h2, -⟩ := digits_mem hi (c := c) (by simp)
    rcases ht with ⟨rfl, rfl⟩ | rfl <;> simp [h1, h2]

theorem parseF64_iff (s : Text) (q : ℚ) : parseF64 s = some q ↔ RealField s q := by
  unfold parseF64 RealField
  by_cases h : s.head? = some '-'
  · simp only [h, if_true, Option.map_eq_some_iff, parseUnsigned_iff]
    cases s with
    | nil => cases h
    | cons c s =>
      obtain rfl := Option.some.inj h
      constructor
      · rintro ⟨r, hr, rfl⟩
        exact .inr ⟨s, r, hr, .inr ⟨rfl, rfl⟩⟩
      · rintro (h' | ⟨u, r, hr, ⟨hu, -⟩ | ⟨hu, rfl⟩⟩)
        · exact absurd rfl (fraction_no_sign h').2
        · cases hu
        · cases hu
          exact ⟨r, hr, rfl⟩
  · simp only [h, if_false, parseUnsigned_iff]
    by_cases h2 : s.head? = some '+'
    · cases s with
      | nil => cases h2
      | cons c s =>
        obtain rfl := Option.some.inj h2
        rw [if_pos h2, List.tail_cons]
        constructor
        · intro hr
          exact .inr ⟨s, q, hr, .inl ⟨rfl, rfl⟩⟩
        · rintro (h' | ⟨u, r, hr, ⟨hu, rfl⟩ | ⟨hu, -⟩⟩)
          · exact absurd rfl (fraction_no_sign h').1
          · cases hu
            exact hr
          · cases hu
    · rw [if_neg h2]
      constructor
      · exact .inl
      · rintro (h' | ⟨u, r, hr, ⟨rfl, -⟩ | ⟨rfl, -⟩⟩)
        · exact h'
        · exact absurd rfl h2
        · exact absurd rfl h

/-! ## Sections -/

/-- The reader's name of a section. -/
def modeOf : Section → ReadMode
  | .header => .header
  | .geom => .geom
  | .weight => .weight
  | .curvil => .curvil
  | .degmode => .degmode
  | .ignored => .none

theorem plain_or_title (line : Text) : Plain line ∨ ∃ s, Title s line := by
  by_cases h0 : Section.header.key <:+: line
  · exact .inr ⟨.header, h0, by intro t ht; exact absurd ht (Nat.not_lt_zero _)⟩
  by_cases h1 : Section.geom.key <:+: line
  · exact .inr ⟨.geom, h1, by intro t ht; cases t <;> simp [Section.rank] at ht <;> assumption⟩
  by_cases h2 : Section.weight.key <:+: line
  · exact .inr ⟨.weight, h2, by intro t ht; cases t <;> simp [Section.rank] at ht <;> assumption⟩
  by_cases h3 : Section.curvil.key <:+: line
  · exact .inr ⟨.curvil, h3, by intro t ht; cases t <;> simp [Section.rank] at ht <;> assumption⟩
  by_cases h4 : Section.degmode.key <:+: line
  · exact .inr ⟨.degmode, h4, by intro t ht; cases t <;> simp [Section.rank] at ht <;> assumption⟩
  by_cases h5 : Section.ignored.key <:+: line
  · exact .inr ⟨.ignored, h5, by intro t ht; cases t <;> simp [Section.rank] at ht <;> assumption⟩
  exact .inl fun s => by cases s <;> assumption

/-- The number of lines skipped after the title of a section. -/
def skipOf (s : Section) : Nat := if s = .geom ∨ s = .weight then 1 else 0

theorem contains_false {line key : Text} (h : ¬ key <:+: line) : contains line key = false := by
  rw [← contains_iff] at h
  simpa using h

theorem readLine_eq (r : Reader) (line : Text) (hr : r.skip = 0) : readLine r line =
    if contains line Section.header.key then some { r with mode := .header }
    else if contains line Section.geom.key then some { r with skip := 1, mode := .geom }
    else if contains line Section.weight.key then some { r with skip := 1, mode := .weight }
    else if contains line Section.curvil.key then some { r with mode := .curvil }
    else if contains line Section.degmode.key then some { r with mode := .degmode }
    else if contains line Section.ignored.key then some { r with mode := .none }
    else dataLine r line := by
  unfold readLine
  rw [if_neg (by omega)]
  rfl

theorem readLine_title (r : Reader) (s : Section) (line : Text) (h : Title s line) (hr : r.skip = 0) :
    readLine r line = some { r with mode := modeOf s, skip := skipOf s } := by
  obtain ⟨h1, h2⟩ := h
  have key := (contains_iff _ _).2 h1
  have lower : ∀ t : Section, t.rank < s.rank → contains line t.key = false := fun t ht => contains_false (h2 t ht)
  rw [readLine_eq r line hr]
  cases s with
  | header =>
    rw [if_pos key]
    simp [modeOf, skipOf, hr]
  | geom =>
    rw [lower .header (by decide), key]
    rfl
  | weight =>
    rw [lower .header (by decide), lower .geom (by decide), key]
    rfl
  | curvil =>
    rw [lower .header (by decide), lower .geom (by decide), lower .weight (by decide), key]
    simp [modeOf, skipOf, hr]
  | degmode =>
    rw [lower .header (by decide), lower .geom (by decide), lower .weight (by decide), lower .curvil (by decide), key]
    simp [modeOf, skipOf, hr]
  | ignored =>
    rw [lower .header (by decide), lower .geom (by decide), lower .weight (by decide), lower .curvil (by decide),
      lower .degmode (by decide), key]
    simp [modeOf, skipOf, hr]

theorem readLine_plain (r : Reader) (line : Text) (h : Plain line) (hr : r.skip = 0) :
    readLine r line = dataLine r line := by
  have e : ∀ t : Section, contains line t.key = false := fun t => contains_false (h t)
  rw [readLine_eq r line hr, e, e, e, e, e, e]
  rfl

theorem dataLine_keeps (r r' : Reader) (line : Text) (h : dataLine r line = some r') :
    r'.skip = r.skip ∧ r'.mode = r.mode := by
  obtain ⟨cm, m, sk, ret⟩ := r
  cases m <;> simp only [dataLine, Option.bind_eq_bind, Option.bind_eq_some_iff, Option.pure_def,
    Option.some.injEq] at h
  · obtain ⟨_, -, rfl⟩ := h; exact ⟨rfl, rfl⟩
  · obtain ⟨_, -, rfl⟩ := h; exact ⟨rfl, rfl⟩
  · obtain ⟨_, -, rfl⟩ := h; exact ⟨rfl, rfl⟩
  · obtain ⟨_, -, rfl⟩ := h; exact ⟨rfl, rfl⟩
  · obtain ⟨_, -, rfl⟩ := h; exact ⟨rfl, rfl⟩
  · subst h; exact ⟨rfl, rfl⟩

theorem fold_plain (data : List Text) (h : ∀ l ∈ data, Plain l) (r : Reader) (hr : r.skip = 0) :
    data.foldlM readLine r = data.foldlM dataLine r := by
  induction data generalizing r with
  | nil => rfl
  | cons l ls ih =>
    simp only [List.foldlM_cons]
    rw [readLine_plain r l (h l (by simp)) hr]
    cases hd : dataLine r l with
    | none => rfl
    | some r' => exact ih (fun l hl => h l (by simp [hl])) r' ((dataLine_keeps _ _ _ hd).1.trans hr)

theorem fold_block (b : Block) (h : b.Ok) (r : Reader) (hr : r.skip = 0) :
    b.lines.foldlM readLine r = b.data.foldlM dataLine { r with mode := modeOf b.sec, skip := 0 } := by
  obtain ⟨h1, h2, h3⟩ := h
  unfold Block.lines
  rw [List.foldlM_cons, readLine_title r _ _ h1 hr]
  change List.foldlM readLine { r with mode := modeOf b.sec, skip := skipOf b.sec } (b.count ++ b.data) = _
  rw [List.foldlM_append]
  change (List.foldlM readLine { r with mode := modeOf b.sec, skip := skipOf b.sec } b.count) >>= _ = _
  by_cases hs : b.sec = .geom ∨ b.sec = .weight
  · rw [if_pos hs] at h2
    obtain ⟨c, hc⟩ := List.length_eq_one_iff.1 h2
    rw [hc, skipOf, if_pos hs]
    have : readLine { r with mode := modeOf b.sec, skip := 1 } c = some { r with mode := modeOf b.sec, skip := 0 } := rfl
    rw [List.foldlM_cons, this]
    exact fold_plain _ h3 _ rfl
  · rw [if_neg hs] at h2
    rw [List.eq_nil_of_length_eq_zero h2, skipOf, if_neg hs]
    exact fold_plain _ h3 _ rfl

/-- The five results of reading, put together. -/
def assemble (r : Reader) (h : Option (List Int)) (g : Option (List (Text × Nat) × List InAtom × List Dummy))
    (w : Option (List (Nat × ℚ))) (c : Option (List Curvil)) (d : Option (List (List Nat))) : Option Reader := do
  let h ← h
  let g ← g
  let w ← w
  let c ← c
  let d ← d
  return { r with coordMap := g.1, ret := ⟨h, g.2.1, w, c, d, g.2.2⟩ }

theorem dataFold (data : List Text) (r : Reader) : data.foldlM dataLine r =
    match r.mode with
    | .header => (data.foldlM headerLine r.ret.header).map fun h => { r with ret := { r.ret with header := h } }
    | .geom => (data.foldlM geomLine (r.coordMap, r.ret.atoms, r.ret.dummies)).map fun g =>
        { r with coordMap := g.1, ret := { r.ret with atoms := g.2.1, dummies := g.2.2 } }
    | .weight => (data.foldlM weightLine r.ret.weights).map fun w => { r with ret := { r.ret with weights := w } }
    | .curvil => (data.foldlM curvilLine r.ret.curvils).map fun c => { r with ret := { r.ret with curvils := c } }
    | .degmode => (data.foldlM degmodeLine r.ret.degmodes).map fun d => { r with ret := { r.ret with degmodes := d } }
    | .none => some r := by
  induction data generalizing r with
  | nil => cases r with | mk a m s ret => cases m <;> rfl
  | cons l ls ih =>
    simp only [List.foldlM_cons]
    obtain ⟨cm, m, sk, ret⟩ := r
    cases m <;> simp only [dataLine]
    · cases headerLine ret.header l with
      | none => rfl
      | some h => exact ih _
    · cases geomLine (cm, ret.atoms, ret.dummies) l with
      | none => rfl
      | some h => exact ih _
    · cases weightLine ret.weights l with
      | none => rfl
      | some h => exact ih _
    · cases curvilLine ret.curvils l with
      | none => rfl
      | some h => exact ih _
    · cases degmodeLine ret.degmodes l with
      | none => rfl
      | some h => exact ih _
    · exact ih _

theorem content_cons (b : Block) (bs : List Block) (s : Section) :
    content (b :: bs) s = if b.sec = s then b.data ++ content bs s else content bs s := by
  unfold content
  by_cases h : b.sec = s
  · rw [List.filter_cons_of_pos (by simpa using h), List.flatMap_cons, if_pos h]
  · rw [List.filter_cons_of_neg (by simpa using h), if_neg h]

/-- Reading whole sections reads the five kinds of content separately. -/
theorem fold_blocks (bs : List Block) (h : ∀ b ∈ bs, b.Ok) (r : Reader) (hr : r.skip = 0) :
    ((bs.flatMap Block.lines).foldlM readLine r).map (fun r' => { r' with mode := ReadMode.none }) =
    assemble { r with mode := .none } ((content bs .header).foldlM headerLine r.ret.header)
      ((content bs .geom).foldlM geomLine (r.coordMap, r.ret.atoms, r.ret.dummies))
      ((content bs .weight).foldlM weightLine r.ret.weights)
      ((content bs .curvil).foldlM curvilLine r.ret.curvils)
      ((content bs .degmode).foldlM degmodeLine r.ret.degmodes) := by
  induction bs generalizing r with
  | nil => rfl
  | cons b bs ih =>
    rw [List.flatMap_cons, List.foldlM_append, fold_block b (h b (by simp)) r hr, dataFold]
    simp only [content_cons]
    obtain ⟨cm, m, sk, ret⟩ := r
    simp only at hr
    subst hr
    have ih' := fun r' hr' => ih (fun b hb => h b (by simp [hb])) r' hr'
    cases hb : b.sec <;> simp only [modeOf, reduceCtorEq, if_true, if_false, List.foldlM_append]
    · cases b.data.foldlM headerLine ret.header with
      | none => simp [assemble]
      | some x => simp only [Option.map_some, Option.bind_eq_bind, Option.bind_some]; exact ih' _ rfl
    · cases b.data.foldlM geomLine (cm, ret.atoms, ret.dummies) with
      | none =>
        cases (content bs .header).foldlM headerLine ret.header <;> simp [assemble]
      | some x => simp only [Option.map_some, Option.bind_eq_bind, Option.bind_some]; exact ih' _ rfl
    · cases b.data.foldlM weightLine ret.weights with
      | none =>
        cases (content bs .header).foldlM headerLine ret.header <;>
        cases (content bs .geom).foldlM geomLine (cm, ret.atoms, ret.dummies) <;> simp [assemble]
      | some x => simp only [Option.map_some, Option.bind_eq_bind, Option.bind_some]; exact ih' _ rfl
    · cases b.data.foldlM curvilLine ret.curvils with
      | none =>
        cases (content bs .header).foldlM headerLine ret.header <;>
        cases (content bs .geom).foldlM geomLine (cm, ret.atoms, ret.dummies) <;>
        cases (content bs .weight).foldlM weightLine ret.weights <;> simp [assemble]
      | some x => simp only [Option.map_some, Option.bind_eq_bind, Option.bind_some]; exact ih' _ rfl
    · cases b.data.foldlM degmodeLine ret.degmodes with
      | none =>
        cases (content bs .header).foldlM headerLine ret.header <;>
        cases (content bs .geom).foldlM geomLine (cm, ret.atoms, ret.dummies) <;>
        cases (content bs .weight).foldlM weightLine ret.weights <;>
        cases (content bs .curvil).foldlM curvilLine ret.curvils <;> simp [assemble]
      | some x => simp only [Option.map_some, Option.bind_eq_bind, Option.bind_some]; exact ih' _ rfl
    · simp only [Option.bind_eq_bind, Option.bind_some]; exact ih' _ rfl

/-- Every list of lines is made of lines before the first title, whole sections, and at most one title at the very end
whose count line is missing. -/
theorem lines_decompose (lines : List Text) : ∃ (pre : List Text) (bs : List Block) (cut : List Text),
    lines = pre ++ bs.flatMap Block.lines ++ cut ∧ (∀ l ∈ pre, Plain l) ∧ (∀ b ∈ bs, b.Ok) ∧
    (cut = [] ∨ ∃ t s, cut = [t] ∧ (s = Section.geom ∨ s = Section.weight) ∧ Title s t) := by
  generalize hn : lines.length = n
  induction n using Nat.strong_induction_on generalizing lines with
  | _ n ih =>
    cases lines with
    | nil => exact ⟨[], [], [], rfl, by simp, by simp, .inl rfl⟩
    | cons l ls =>
      simp only [List.length_cons] at hn
      rcases plain_or_title l with hp | ⟨s, hs⟩
      · obtain ⟨pre, bs, cut, rfl, h1, h2, h3⟩ := ih _ (by omega) ls rfl
        refine ⟨l :: pre, bs, cut, rfl, fun x hx => ?_, h2, h3⟩
        rcases List.mem_cons.1 hx with rfl | hx
        · exact hp
        · exact h1 x hx
      · by_cases hk : s = .geom ∨ s = .weight
        · cases ls with
          | nil => exact ⟨[], [], [l], rfl, by simp, by simp, .inr ⟨l, s, rfl, hk, hs⟩⟩
          | cons c ls =>
            simp only [List.length_cons] at hn
            obtain ⟨pre, bs, cut, rfl, h1, h2, h3⟩ := ih _ (by omega) ls rfl
            refine ⟨[], ⟨s, l, [c], pre⟩ :: bs, cut, by simp [Block.lines], by simp, fun b hb => ?_, h3⟩
            rcases List.mem_cons.1 hb with rfl | hb
            · exact ⟨hs, by simp [hk], h1⟩
            · exact h2 b hb
        · obtain ⟨pre, bs, cut, rfl, h1, h2, h3⟩ := ih _ (by omega) ls rfl
          refine ⟨[], ⟨s, l, [], pre⟩ :: bs, cut, by simp [Block.lines], by simp, fun b hb => ?_, h3⟩
          rcases List.mem_cons.1 hb with rfl | hb
          · exact ⟨hs, by simp [hk], h1⟩
          · exact h2 b hb

/-- Reading a file reads the five kinds of content separately. -/
theorem readInput_parts (pre : List Text) (bs : List Block) (cut : List Text) (h1 : ∀ l ∈ pre, Plain l)
    (h2 : ∀ b ∈ bs, b.Ok) (h3 : cut = [] ∨ ∃ t s, cut = [t] ∧ (s = Section.geom ∨ s = Section.weight) ∧ Title s t) :
    readInput (pre ++ bs.flatMap Block.lines ++ cut) =
    (assemble ⟨[], .none, 0, Input.empty⟩ ((content bs .header).foldlM headerLine [])
      ((content bs .geom).foldlM geomLine ([], [], []))
      ((content bs .weight).foldlM weightLine [])
      ((content bs .curvil).foldlM curvilLine [])
      ((content bs .degmode).foldlM degmodeLine [])).bind fun r => finishRead r.ret := by
  have key := fold_blocks bs h2 ⟨[], .none, 0, Input.empty⟩ rfl
  have hskip : ∀ r, (bs.flatMap Block.lines).foldlM readLine ⟨[], .none, 0, Input.empty⟩ = some r → r.skip = 0 := by
    intro r hr
    rw [hr] at key
    have := key.symm
    simp only [assemble, Option.bind_eq_bind, Option.bind_eq_some_iff, Option.map_some, Option.pure_def,
      Option.some.injEq] at this
    obtain ⟨_, -, _, -, _, -, _, -, _, -, h⟩ := this
    have := congrArg Reader.skip h
    exact this.symm
  have key2 := congrArg (fun o => Option.bind o fun r => finishRead r.ret) key
  simp only [Option.bind_map] at key2
  unfold readInput
  rw [List.foldlM_append, List.foldlM_append, fold_plain pre h1 _ rfl, dataFold]
  refine Eq.trans ?_ key2
  change ((((bs.flatMap Block.lines).foldlM readLine ⟨[], .none, 0, Input.empty⟩).bind fun r =>
    cut.foldlM readLine r).bind fun r => finishRead r.ret) = _
  cases hr : (bs.flatMap Block.lines).foldlM readLine ⟨[], .none, 0, Input.empty⟩ with
  | none => rfl
  | some r =>
    rcases h3 with rfl | ⟨t, s, rfl, -, ht⟩
    · rfl
    · simp only [Option.bind_some, List.foldlM_cons, List.foldlM_nil]
      rw [readLine_title r s t ht (hskip r hr)]
      rfl

end Verif
