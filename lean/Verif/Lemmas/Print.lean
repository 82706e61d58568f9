import Verif.Lemmas.Files
import Verif.Spec.Print
import Mathlib.Algebra.Order.Field.Power
import Mathlib.Tactic.Linarith

/-!
# Lemmas on the text report
-/

namespace Verif

/-! ### Scientific notation -/

theorem roundEven_ge (q : ℚ) (n : Nat) (h0 : 0 ≤ q) (h : (n : ℚ) ≤ q) : n ≤ roundEven q := by
  have h1 := roundEven_near q h0
  rw [abs_le] at h1
  by_contra hc
  have : (roundEven q : ℚ) + 1 ≤ n := by exact_mod_cast (by omega : roundEven q + 1 ≤ n)
  linarith

theorem sciParts_spec (p : Nat) (q : ℚ) (hq : 0 < q) : 10 ^ p ≤ (sciParts p q).1 ∧ (sciParts p q).1 < 10 ^ (p + 1) ∧
    |((sciParts p q).1 : ℚ) / 10 ^ p * (10 : ℚ) ^ (sciParts p q).2 - q| ≤ 1 / 2 / 10 ^ p * q := by
  have hb : 1 < (10 : ℕ) := by norm_num
  have l1 : ((10 : ℕ) : ℚ) ^ Int.log 10 q ≤ q := Int.zpow_log_le_self hb hq
  have l2 : q < ((10 : ℕ) : ℚ) ^ (Int.log 10 q + 1) := Int.lt_zpow_succ_log_self hb q
  push_cast at l1 l2
  have he : (0 : ℚ) < (10 : ℚ) ^ Int.log 10 q := by positivity
  have hp : (0 : ℚ) < 10 ^ p := by positivity
  rw [zpow_add_one₀ (by norm_num)] at l2
  unfold sciParts
  simp only
  generalize hE : (10 : ℚ) ^ Int.log 10 q = E at *
  have x0 : 0 ≤ q / E * 10 ^ p := by positivity
  have x1 : ((10 ^ p : ℕ) : ℚ) ≤ q / E * 10 ^ p := by
    push_cast
    have : 1 ≤ q / E := (one_le_div he).2 l1
    nlinarith
  have x2 : q / E * 10 ^ p ≤ ((10 ^ (p + 1) : ℕ) : ℚ) := by
    push_cast
    have : q / E ≤ 10 := (div_le_iff₀ he).2 (by linarith)
    rw [pow_succ]
    nlinarith
  have near := roundEven_near _ x0
  have ge := roundEven_ge _ _ x0 x1
  have le := roundEven_le _ _ x0 x2
  generalize hn : roundEven (q / E * 10 ^ p) = n at *
  have err : |(n : ℚ) / 10 ^ p * E - q| ≤ 1 / 2 / 10 ^ p * q := by
    have e : (n : ℚ) / 10 ^ p * E - q = (n - q / E * 10 ^ p) * (E / 10 ^ p) := by
      field_simp
    have hE' : 0 < E / 10 ^ p := by positivity
    rw [e, abs_mul, abs_of_pos hE']
    calc _ ≤ 1 / 2 * (E / 10 ^ p) := mul_le_mul_of_nonneg_right near hE'.le
      _ ≤ 1 / 2 * (q / 10 ^ p) := by gcongr
      _ = _ := by ring
  split
  · rename_i hc
    refine ⟨le_rfl, Nat.pow_lt_pow_right (by norm_num) (by omega), ?_⟩
    dsimp only
    rw [zpow_add_one₀ (by norm_num), hE]
    rw [hc] at err
    convert err using 3
    push_cast
    field_simp
    ring
  · rename_i hc
    refine ⟨ge, by omega, ?_⟩
    dsimp only
    rw [hE]
    exact err

/-- The number a value in scientific notation reads as. -/
def sciValue (p : Nat) (q : ℚ) : ℚ :=
  let r := if q = 0 then (0, 0) else sciParts p |q|
  (if q < 0 then -1 else 1) * ((r.1 : ℚ) / 10 ^ p * (10 : ℚ) ^ r.2)

theorem sciValue_printed (p : Nat) (q : ℚ) : PrintedSci p q (sciValue p q) := by
  unfold sciValue
  by_cases h0 : q = 0
  · subst h0
    simp only [if_true]
    refine ⟨⟨0, 0, by positivity, by simp⟩, by simp, by simp⟩
  · rw [if_neg h0]
    obtain ⟨a, b, c⟩ := sciParts_spec p |q| (abs_pos.2 h0)
    generalize sciParts p |q| = r at *
    have pos : (0 : ℚ) < (r.1 : ℚ) / 10 ^ p * (10 : ℚ) ^ r.2 := by
      have : 0 < r.1 := lt_of_lt_of_le (by positivity) a
      positivity
    simp only
    refine ⟨?_, ?_, ?_⟩
    · refine ⟨(if q < 0 then -1 else 1) * (r.1 : ℤ), r.2 - p, ?_, ?_⟩
      · have : |(if q < 0 then -1 else 1) * (r.1 : ℤ)| = (r.1 : ℤ) := by
          split <;> simp
        rw [this]
        exact_mod_cast b
      · rw [zpow_sub₀ (by norm_num), zpow_natCast]
        push_cast
        split <;> ring
    · refine ⟨fun h => ?_, fun h => absurd h h0⟩
      split at h <;> linarith
    · split
      · rename_i hq
        rw [abs_of_neg hq] at c ⊢
        rw [← abs_neg]
        convert c using 2
        ring
      · rename_i hq
        rw [abs_of_nonneg (not_lt.1 hq)] at c ⊢
        rw [one_mul]
        exact c

theorem e_ok : isWs 'e' = false ∧ Safe 'e' := by
  constructor
  · with_unfolding_all decide
  · decide

theorem showInt_numeral (n : Int) : IntNumeral (showInt n) n ∧ Word (showInt n) := by
  obtain ⟨ds, d0, d1, d2, -⟩ := showNat_spec n.natAbs
  have num : Numeral (showNat n.natAbs) n.natAbs := ⟨ds, d0, d1, d2.symm⟩
  have w := digits_word d1 d0
  unfold showInt
  split
  · exact ⟨⟨n.natAbs, .inr ⟨_, num, .inr ⟨rfl, by omega⟩⟩⟩, word_minus w⟩
  · exact ⟨⟨n.natAbs, .inl ⟨num, by omega⟩⟩, w⟩

theorem word_append {a b : Text} (ha : Word a) (hb : Word b) : Word (a ++ b) := by
  refine ⟨fun e => ha.1 (List.append_eq_nil_iff.1 e).1, fun c hc => ?_, fun c hc => ?_⟩
  · exact (List.mem_append.1 hc).elim (ha.2.1 c) (hb.2.1 c)
  · exact (List.mem_append.1 hc).elim (ha.2.2 c) (hb.2.2 c)

theorem word_cons {c : Char} {t : Text} (hc : isWs c = false ∧ Safe c) (ht : ∀ d ∈ t, isWs d = false ∧ Safe d) :
    Word (c :: t) := by
  refine ⟨by simp, fun d hd => ?_, fun d hd => ?_⟩ <;> rcases List.mem_cons.1 hd with rfl | hd
  · exact hc.1
  · exact (ht d hd).1
  · exact hc.2
  · exact (ht d hd).2

theorem showSci_field (p : Nat) (q : ℚ) : RealField (showSci p q) (sciValue p q) ∧ Word (showSci p q) := by
  unfold showSci sciValue
  simp only
  generalize (if q = 0 then ((0 : ℕ), (0 : ℤ)) else sciParts p |q|) = r
  obtain ⟨is, i0, i1, i2, -⟩ := showNat_spec (r.1 / 10 ^ p)
  obtain ⟨fs, f1, f2, f3⟩ := showDigits_spec p (r.1 % 10 ^ p)
  rw [Nat.mod_mod] at f3
  obtain ⟨n1, n2⟩ := showInt_numeral r.2
  have val : ((Nat.ofDigits 10 (is ++ fs).reverse : ℕ) : ℚ) / 10 ^ fs.length * (10 : ℚ) ^ r.2 =
      (r.1 : ℚ) / 10 ^ p * (10 : ℚ) ^ r.2 := by
    rw [f2, List.reverse_append, Nat.ofDigits_append, i2, f3, List.length_reverse, f2, Nat.mod_add_div]
  have frac : Fraction (showNat (r.1 / 10 ^ p) ++ '.' :: showDigits p (r.1 % 10 ^ p) ++ 'e' :: showInt r.2)
      ((r.1 : ℚ) / 10 ^ p * (10 : ℚ) ^ r.2) :=
    ⟨_, _, 'e' :: showInt r.2, is, fs, r.2, i1, f1, by simp [i0], .inr ⟨'e', _, rfl, .inl rfl, n1⟩, .inr (by simp),
      val.symm⟩
  have word : Word (showNat (r.1 / 10 ^ p) ++ '.' :: showDigits p (r.1 % 10 ^ p) ++ 'e' :: showInt r.2) := by
    refine word_append (word_append (digits_word i1 i0) (word_cons point_ok fun d hd => ?_))
      (word_cons e_ok fun d hd => ⟨n2.2.1 d hd, n2.2.2 d hd⟩)
    exact ⟨(digits_mem f1 hd).2.2.2.2.2, digits_safe f1 d hd⟩
  split
  · rw [neg_one_mul]
    exact ⟨.inr ⟨_, _, frac, .inr ⟨by simp, rfl⟩⟩, by simpa using word_minus word⟩
  · rw [one_mul]
    exact ⟨.inl (by simpa using frac), by simpa using word⟩

theorem showsSci (p : Nat) (q : ℚ) : ShowsSci p (showSci p q) q :=
  ⟨_, (showSci_field p q).1, sciValue_printed p q⟩

theorem showsFixed (p : Nat) (q : ℚ) : ShowsFixed p (showFixed p q) q :=
  ⟨_, (showFixed_field p q).1, printedValue_printed p q⟩

/-! ### Cells -/

theorem fieldsOf_pad (w : Nat) (t : Text) (h : t ≠ [] ∧ ∀ c ∈ t, isWs c = false) : fieldsOf (padLeft w t) = [t] := by
  have := fieldsOf_padded [(w, t)] (by simpa using h) (by simp)
  simpa using this

theorem padLeft_length (w : Nat) (t : Text) (h : t.length ≤ w) : (padLeft w t).length = w := by
  unfold padLeft
  rw [List.length_append, List.length_replicate]
  omega

theorem columns_mid (pre mid post : Text) (a b : Nat) (ha : pre.length = a) (hb : a + mid.length = b) :
    columns a b (pre ++ mid ++ post) = mid := by
  unfold columns
  rw [List.append_assoc, List.drop_append_of_le_length (by omega), List.drop_eq_nil_of_le (by omega), List.nil_append,
    List.take_append_of_le_length (by omega), List.take_of_length_le (by omega)]

theorem cell_pad {P : Text → Prop} (pre post t : Text) (a b w : Nat) (ha : pre.length = a) (hb : a + w = b)
    (hw : t.length ≤ w) (ht : t ≠ [] ∧ ∀ c ∈ t, isWs c = false) (hP : P t) :
    Cell P (pre ++ padLeft w t ++ post) a b :=
  ⟨t, by rw [columns_mid _ _ _ _ _ ha (by rw [padLeft_length _ _ hw, hb]), fieldsOf_pad _ _ ht], hP⟩

theorem word_ok {t : Text} (h : Word t) : t ≠ [] ∧ ∀ c ∈ t, isWs c = false := ⟨h.1, h.2.1⟩

theorem flatMap_length {β : Type} (f : β → Text) (w : Nat) (l : List β) (h : ∀ x ∈ l, (f x).length = w) :
    (l.flatMap f).length = w * l.length := by
  induction l with
  | nil => simp
  | cons a l ih =>
    rw [List.flatMap_cons, List.length_append, h a (by simp), ih fun x hx => h x (by simp [hx]), List.length_cons]
    ring

theorem flatMap_columns {β : Type} (f : β → Text) (w : Nat) (l : List β) (h : ∀ x ∈ l, (f x).length = w) (i : Nat) (x : β)
    (hx : l[i]? = some x) : columns (w * i) (w * i + w) (l.flatMap f) = f x := by
  obtain ⟨hi, rfl⟩ := List.getElem?_eq_some_iff.1 hx
  have e : l.flatMap f = (l.take i).flatMap f ++ f l[i] ++ (l.drop (i + 1)).flatMap f := by
    conv_lhs => rw [← List.take_append_drop i l, List.drop_eq_getElem_cons hi]
    rw [List.flatMap_append, List.flatMap_cons, List.append_assoc]
  rw [e]
  apply columns_mid
  · rw [flatMap_length f w _ fun x hx => h x (List.mem_of_mem_take hx), List.length_take, min_eq_left hi.le]
  · rw [h _ (List.getElem_mem _)]

theorem showNat_numeral (n : Nat) : Numeral (showNat n) n := by
  obtain ⟨ds, d0, d1, d2, -⟩ := showNat_spec n
  exact ⟨ds, d0, d1, d2.symm⟩

theorem showNat_word (n : Nat) : Word (showNat n) := by
  obtain ⟨ds, d0, d1, d2, -⟩ := showNat_spec n
  exact digits_word d1 d0

theorem showNat_one (n : Nat) (h : n < 10) : (showNat n).length = 1 := by
  have h1 := showNat_length n 1 le_rfl (by simpa using h)
  have h2 := List.length_pos_iff.2 (showNat_word n).1
  omega

theorem showState_columns (s : State) (h : StateFits s) : ∃ t, showState s = some t ∧ StateColumns t s ∧
    ∃ len, s.len = some len ∧ t.length = 5 * len := by
  cases s with
  | i1st v =>
    have hl : ∀ n ∈ v, (padLeft 5 (showNat n)).length = 5 := fun n hn =>
      padLeft_length _ _ (showNat_length n 5 (by norm_num) (h n hn))
    have len := flatMap_length (fun s => padLeft 5 (showNat s)) 5 v hl
    refine ⟨_, rfl, ⟨len, fun i n hi => ?_⟩, _, rfl, len⟩
    refine ⟨showNat n, ?_, showNat_field n ?_ |>.1⟩
    · rw [flatMap_columns (fun s => padLeft 5 (showNat s)) 5 v hl i n hi, fieldsOf_pad _ _ (word_ok (showNat_word n))]
    · exact (h n (List.mem_of_getElem? hi)).trans (by norm_num)
  | i2st v =>
    have hl : ∀ n ∈ v, (pairText n).length = 5 := fun n hn => by
      unfold pairText
      simp [showNat_one _ (h n hn).1, showNat_one _ (h n hn).2]
    have len := flatMap_length pairText 5 v hl
    refine ⟨_, rfl, ⟨len, fun i n hi => ?_⟩, _, rfl, len⟩
    exact ⟨_, _, showNat_numeral n.1, showNat_numeral n.2, flatMap_columns pairText 5 v hl i n hi⟩
  | i3st v => exact h.elim
  | i12st v w => exact h.elim

/-! ### Parts of the report -/

/-- A line that starts like a row of a table. -/
def RowHead (line : Text) : Prop := ∃ c, line.head? = some c ∧ (c = ' ' ∨ c = '-' ∨ c = '(' ∨ ∃ d < 10, c = Nat.digitChar d)

theorem rowHead_append {a : Text} (h : RowHead a) (b : Text) : RowHead (a ++ b) := by
  obtain ⟨c, h1, h2⟩ := h
  refine ⟨c, ?_, h2⟩
  rw [List.head?_append, h1, Option.some_or]

theorem rowHead_pad (w : Nat) {t : Text} (h : RowHead t) : RowHead (padLeft w t) := by
  unfold padLeft
  rcases hk : w - t.length with _ | k
  · simpa using h
  · exact ⟨' ', by simp [List.replicate_succ], .inl rfl⟩

theorem rowHead_nat (n : Nat) : RowHead (showNat n) := by
  obtain ⟨ds, d0, ⟨d1, d2⟩, -⟩ := showNat_spec n
  rw [d2]
  cases ds with
  | nil => exact absurd rfl d0
  | cons d ds => exact ⟨_, rfl, .inr (.inr (.inr ⟨d, d1 d (by simp), rfl⟩))⟩

theorem rowHead_fixed (p : Nat) (q : ℚ) : RowHead (showFixed p q) := by
  unfold showFixed
  dsimp only
  split
  · exact ⟨'-', by simp, .inr (.inl rfl)⟩
  · exact rowHead_append (rowHead_nat _) _

theorem rowHead_state {s : State} {t : Text} (h : showState s = some t) {b : Text} (hb : RowHead b) : RowHead (t ++ b) := by
  cases s with
  | i1st v =>
    obtain rfl := Option.some.inj h
    cases v with
    | nil => simpa using hb
    | cons n v => exact rowHead_append (rowHead_append (rowHead_pad _ (rowHead_nat n)) _) _
  | i2st v =>
    obtain rfl := Option.some.inj h
    cases v with
    | nil => simpa using hb
    | cons n v => exact ⟨'(', rfl, .inr (.inr (.inl rfl))⟩
  | i3st v => cases h
  | i12st v w =>
    obtain rfl := Option.some.inj h
    cases v with
    | nil => simpa using hb
    | cons n v =>
      cases w with
      | nil => simpa using hb
      | cons m w => exact ⟨'(', rfl, .inr (.inr (.inl rfl))⟩

theorem rowHead_title {line : Text} (h : RowHead line) : line ∉ titles := by
  obtain ⟨c, h1, h2⟩ := h
  intro hm
  have key : c ∈ ['V', 'R', 'Q', 'S', 'C', 'T'] := by
    fin_cases hm <;> (obtain rfl := Option.some.inj h1; decide)
  rcases h2 with rfl | rfl | rfl | ⟨d, hd, rfl⟩
  · revert key; decide
  · revert key; decide
  · revert key; decide
  · interval_cases d <;> revert key <;> decide

theorem rowHead_nonempty {line : Text} (h : RowHead line) : line ≠ [] := by
  rintro rfl
  obtain ⟨c, h, -⟩ := h
  cases h

theorem between_eq {a b : Text} {pre body post : List Text} (h1 : a ∉ pre) (h2 : b ∉ body) :
    between a b (pre ++ a :: body ++ b :: post) = body.filter fun l => !l.isEmpty := by
  unfold between
  have d : ((pre ++ a :: body ++ b :: post).dropWhile fun l => !(l == a)) = a :: (body ++ b :: post) := by
    rw [List.append_assoc, List.dropWhile_append_of_pos]
    · simp
    · intro l hl
      have : l ≠ a := fun e => h1 (e ▸ hl)
      simp [this]
  rw [d, List.tail_cons, List.takeWhile_append_of_pos]
  · simp
  · intro l hl
    have : l ≠ b := fun e => h2 (e ▸ hl)
    simp [this]

theorem between_end {a b : Text} {pre body : List Text} (h1 : a ∉ pre) (h2 : b ∉ body) :
    between a b (pre ++ a :: body) = body.filter fun l => !l.isEmpty := by
  unfold between
  have d : ((pre ++ a :: body).dropWhile fun l => !(l == a)) = a :: body := by
    rw [List.dropWhile_append_of_pos]
    · simp
    · intro l hl
      have : l ≠ a := fun e => h1 (e ▸ hl)
      simp [this]
  rw [d, List.tail_cons]
  congr 1
  have := List.takeWhile_append_of_pos (p := fun l => !(l == b)) (l₁ := body) (l₂ := []) fun l hl => by
    have : l ≠ b := fun e => h2 (e ▸ hl)
    simp [this]
  simpa using this

theorem filter_rows {rows : List Text} (h : ∀ l ∈ rows, RowHead l) : (rows.filter fun l => !l.isEmpty) = rows := by
  rw [List.filter_eq_self]
  intro l hl
  have := rowHead_nonempty (h l hl)
  cases l with
  | nil => exact absurd rfl this
  | cons => rfl

section Report
variable {α ι : Type} [Arith α]

theorem freqLine_head (val : α → ℚ) (sym : ι → Text) (r : TableRow α ι) : RowHead (freqLine val sym r) := by
  unfold freqLine
  simp only [List.append_assoc]
  exact rowHead_append (rowHead_pad _ (rowHead_nat _)) _

theorem coriolisLine_head {c : Coriolis} {t : Text} (h : coriolisLine c = some t) : RowHead t := by
  unfold coriolisLine at h
  simp only [Option.bind_eq_bind, Option.bind_eq_some_iff] at h
  obtain ⟨a, -, h⟩ := h
  obtain rfl := Option.some.inj h
  rw [List.append_assoc]
  exact rowHead_append (rowHead_pad _ (rowHead_nat _)) _

theorem mapM_forall {β γ : Type} {f : β → Option γ} {P : γ → Prop} (hf : ∀ b c, f b = some c → P c) {l : List β}
    {t : List γ} (h : l.mapM f = some t) : ∀ c ∈ t, P c := by
  rw [mapM_forall₂] at h
  induction h with
  | nil => simp
  | cons h _ ih =>
    intro c hc
    rcases List.mem_cons.1 hc with rfl | hc
    · exact hf _ _ h
    · exact ih c hc

theorem showRot_head (val : α → ℚ) {r : Rot α} {t : Text} (h : showRot val r = some t) : RowHead t := by
  unfold showRot at h
  simp only [Option.bind_eq_bind, Option.bind_eq_some_iff] at h
  obtain ⟨a, ha, h⟩ := h
  obtain rfl := Option.some.inj h
  simp only [List.append_assoc]
  exact rowHead_state ha (rowHead_append (rowHead_pad _ (rowHead_fixed _ _)) _)

theorem stateTitle_mem (n : Nat) (rest : Text) : padCenter n "State".toList ++ rest ∉ titles ∧
    padCenter n "State".toList ++ rest ≠ [] := by
  unfold padCenter
  constructor
  · intro hm
    rcases hk : (n - "State".toList.length) / 2 with _ | k <;> rw [hk] at hm
    · have key : ∀ t ∈ titles, t.take 2 ≠ ['S', 't'] := by decide
      exact key _ hm rfl
    · refine rowHead_title ⟨' ', ?_, .inl rfl⟩ hm
      simp [List.replicate_succ]
  · simp

theorem rotLines_clean (val : α → ℚ) {out : Output α ι} {rots : List Text} (h : rotLines val out = some rots) :
    (∀ l ∈ rots, l ∉ titles) ∧ ∀ l ∈ rots, l ≠ [] := by
  unfold rotLines at h
  split at h
  · obtain rfl := Option.some.inj h
    simp
  · simp only [Option.bind_eq_bind, Option.bind_eq_some_iff] at h
    obtain ⟨len, -, h⟩ := h
    split at h
    · simp only [Option.bind_eq_some_iff] at h
      obtain ⟨rows, hr, h⟩ := h
      obtain rfl := Option.some.inj h
      have hh := mapM_forall (fun _ _ => showRot_head val) hr
      simp only [List.append_assoc, List.forall_mem_cons]
      exact ⟨⟨(stateTitle_mem _ _).1, fun l hl => rowHead_title (hh l hl)⟩,
        ⟨(stateTitle_mem _ _).2, fun l hl => rowHead_nonempty (hh l hl)⟩⟩
    · simp only [Option.bind_eq_some_iff] at h
      obtain ⟨rows, hr, h⟩ := h
      obtain rfl := Option.some.inj h
      have hh : ∀ l ∈ rows, RowHead l := by
        refine mapM_forall (fun r t ht => ?_) hr
        simp only [Option.bind_eq_some_iff] at ht
        obtain ⟨a, ha, ht⟩ := ht
        obtain rfl := Option.some.inj ht
        exact rowHead_state ha (rowHead_pad _ (rowHead_fixed _ _))
      simp only [List.forall_mem_cons]
      exact ⟨⟨(stateTitle_mem _ _).1, fun l hl => rowHead_title (hh l hl)⟩,
        ⟨(stateTitle_mem _ _).2, fun l hl => rowHead_nonempty (hh l hl)⟩⟩

theorem filter_full {rows : List Text} (h : ∀ l ∈ rows, l ≠ []) : (rows.filter fun l => !l.isEmpty) = rows := by
  rw [List.filter_eq_self]
  intro l hl
  have := h l hl
  cases l with
  | nil => exact absurd rfl this
  | cons => rfl

theorem quarticLines_clean (val : α → ℚ) (q : Quartic α) : ∀ l ∈ quarticLines val q, l ∉ titles := by
  have key : ∀ t ∈ titles, t.take 2 ∉ [['W', 'a'], ['D', 'e'], ['d', 'e'], ['D', ' '], ['d', ' '], ['L', 'i'], []] := by decide
  have key' : ∀ l : Text, l.take 2 ∈ [['W', 'a'], ['D', 'e'], ['d', 'e'], ['D', ' '], ['d', ' '], ['L', 'i'], []] → l ∉ titles :=
    fun l hl hm => key l hm hl
  intro l hl
  apply key'
  simp only [quarticLines, List.mem_cons, List.not_mem_nil, or_false] at hl
  rcases hl with rfl | rfl | rfl | rfl | rfl | rfl | rfl | rfl | rfl | rfl | rfl | rfl | rfl | rfl | rfl | rfl <;>
    simp [fixedLine]

theorem sexticLines_clean (val : α → ℚ) (q : Sextic α) : ∀ l ∈ sexticLines val q, l ∉ titles := by
  have key : ∀ t ∈ titles, t.take 2 ∉ [['W', 'a'], ['P', 'h'], ['p', 'h'], ['H', ' '], ['h', ' '], ['H', 'e'], ['L', 'i'], []] := by
    decide
  have key' : ∀ l : Text, l.take 2 ∈ [['W', 'a'], ['P', 'h'], ['p', 'h'], ['H', ' '], ['h', ' '], ['H', 'e'], ['L', 'i'], []] →
      l ∉ titles := fun l hl hm => key l hm hl
  intro l hl
  apply key'
  simp only [sexticLines, List.mem_cons, List.not_mem_nil, or_false] at hl
  rcases hl with rfl | rfl | rfl | rfl | rfl | rfl | rfl | rfl | rfl | rfl | rfl | rfl | rfl | rfl | rfl | rfl | rfl |
    rfl | rfl | rfl <;> simp [sciLine]

/-- The lines of the vibrational part that are not blank. -/
def vibBody (val : α → ℚ) (sym : ι → Text) (out : Output α ι) (table : List (TableRow α ι)) : List Text :=
  freqTitle :: table.map (freqLine val sym) ++ ["ZPT = ".toList ++ padLeft 8 (showFixed 1 (val out.zpt))]

theorem report_parts (val : α → ℚ) (geom : List Text) (sym : ι → Text) (out : Output α ι) (lines : List Text)
    (hg : ∀ l ∈ geom.tail, l ∉ titles) (h : report val geom sym out = some lines) :
    ∃ table rots cors, freqTable out = some table ∧ rotLines val out = some rots ∧
      out.resonances.coriolis.mapM coriolisLine = some cors ∧
      between vibTitle rotTitle lines = vibBody val sym out table ∧
      between rotTitle quarticTitle lines = rots ∧
      between quarticTitle sexticTitle lines = (quarticLines val out.quartic).filter (fun l => !l.isEmpty) ∧
      between sexticTitle coriolisTitle lines = (sexticLines val out.sextic).filter (fun l => !l.isEmpty) ∧
      between coriolisTitle fermi1Title lines = cors ∧
      between fermi1Title fermi2Title lines = out.resonances.fermi1.map fermi1Line ∧
      between fermi2Title [] lines = out.resonances.fermi2.map fermi2Line := by
  unfold report at h
  simp only [Option.bind_eq_bind, Option.bind_eq_some_iff] at h
  obtain ⟨table, ht, rots, hr, cors, hc, h⟩ := h
  refine ⟨table, rots, cors, ht, hr, hc, ?_⟩
  obtain rfl := Option.some.inj h
  have nil : ([] : Text) ∉ titles := by decide
  have hG : ∀ l ∈ behind "Geometry: ".toList geom, l ∉ titles := by
    have key : ∀ t ∈ titles, t.take 10 ≠ "Geometry: ".toList := by decide
    cases geom with
    | nil => 
      intro l hl hm
      rw [behind, List.mem_singleton] at hl
      exact key l hm (by rw [hl]; rfl)
    | cons a geom =>
      intro l hl
      rcases List.mem_cons.1 hl with rfl | hl
      · exact fun hm => key _ hm rfl
      · exact hg l hl
  have hF : ∀ l ∈ table.map (freqLine val sym), RowHead l := by
    intro l hl
    obtain ⟨r, -, rfl⟩ := List.mem_map.1 hl
    exact freqLine_head val sym r
  have hT : freqTitle ∉ titles := by decide
  have hZ : ∀ z, "ZPT = ".toList ++ z ∉ titles := by
    have key : ∀ t ∈ titles, t.take 6 ≠ "ZPT = ".toList := by decide
    exact fun z hm => key _ hm rfl
  obtain ⟨hR1, hR2⟩ := rotLines_clean val hr
  have hQ := quarticLines_clean val out.quartic
  have hS := sexticLines_clean val out.sextic
  have hC := mapM_forall (fun _ _ => coriolisLine_head) hc
  have h1 : ∀ l ∈ out.resonances.fermi1.map fermi1Line, RowHead l := by
    intro l hl
    obtain ⟨r, -, rfl⟩ := List.mem_map.1 hl
    exact rowHead_append (rowHead_pad _ (rowHead_nat _)) _
  have h2 : ∀ l ∈ out.resonances.fermi2.map fermi2Line, RowHead l := by
    intro l hl
    obtain ⟨r, -, rfl⟩ := List.mem_map.1 hl
    rw [fermi2Line, List.append_assoc]
    exact rowHead_append (rowHead_pad _ (rowHead_nat _)) _
  unfold vibBody
  generalize hZ' : "ZPT = ".toList ++ padLeft 8 (showFixed 1 (val out.zpt)) = Z
  have hZ : Z ∉ titles := hZ' ▸ hZ _
  have hZn : Z ≠ [] := by rw [← hZ']; simp
  have hTn : freqTitle ≠ [] := by decide
  generalize behind "Geometry: ".toList geom = G at *
  generalize table.map (freqLine val sym) = F at *
  generalize quarticLines val out.quartic = Q at *
  generalize sexticLines val out.sextic = S at *
  generalize out.resonances.fermi1.map fermi1Line = A at *
  generalize out.resonances.fermi2.map fermi2Line = B at *
  generalize freqTitle = T at *
  have hF' := fun l hl => rowHead_title (hF l hl)
  have hC' := fun l hl => rowHead_title (hC l hl)
  have hA' := fun l hl => rowHead_title (h1 l hl)
  have dist : titles.Nodup := by decide
  change between vibTitle rotTitle (G ++ [vibTitle, T] ++ F ++ [[], Z, [], rotTitle] ++ rots ++ [[], quarticTitle] ++ Q ++
    [[], sexticTitle] ++ S ++ [[], [], coriolisTitle] ++ cors ++ [[], fermi1Title] ++ A ++ [[], fermi2Title] ++ B) = _ ∧
    between rotTitle quarticTitle (G ++ [vibTitle, T] ++ F ++ [[], Z, [], rotTitle] ++ rots ++ [[], quarticTitle] ++ Q ++
    [[], sexticTitle] ++ S ++ [[], [], coriolisTitle] ++ cors ++ [[], fermi1Title] ++ A ++ [[], fermi2Title] ++ B) = _ ∧
    between quarticTitle sexticTitle (G ++ [vibTitle, T] ++ F ++ [[], Z, [], rotTitle] ++ rots ++ [[], quarticTitle] ++ Q ++
    [[], sexticTitle] ++ S ++ [[], [], coriolisTitle] ++ cors ++ [[], fermi1Title] ++ A ++ [[], fermi2Title] ++ B) = _ ∧
    between sexticTitle coriolisTitle (G ++ [vibTitle, T] ++ F ++ [[], Z, [], rotTitle] ++ rots ++ [[], quarticTitle] ++ Q ++
    [[], sexticTitle] ++ S ++ [[], [], coriolisTitle] ++ cors ++ [[], fermi1Title] ++ A ++ [[], fermi2Title] ++ B) = _ ∧
    between coriolisTitle fermi1Title (G ++ [vibTitle, T] ++ F ++ [[], Z, [], rotTitle] ++ rots ++ [[], quarticTitle] ++ Q ++
    [[], sexticTitle] ++ S ++ [[], [], coriolisTitle] ++ cors ++ [[], fermi1Title] ++ A ++ [[], fermi2Title] ++ B) = _ ∧
    between fermi1Title fermi2Title (G ++ [vibTitle, T] ++ F ++ [[], Z, [], rotTitle] ++ rots ++ [[], quarticTitle] ++ Q ++
    [[], sexticTitle] ++ S ++ [[], [], coriolisTitle] ++ cors ++ [[], fermi1Title] ++ A ++ [[], fermi2Title] ++ B) = _ ∧
    between fermi2Title [] (G ++ [vibTitle, T] ++ F ++ [[], Z, [], rotTitle] ++ rots ++ [[], quarticTitle] ++ Q ++
    [[], sexticTitle] ++ S ++ [[], [], coriolisTitle] ++ cors ++ [[], fermi1Title] ++ A ++ [[], fermi2Title] ++ B) = _
  have hm : vibTitle ∈ titles ∧ rotTitle ∈ titles ∧ quarticTitle ∈ titles ∧ sexticTitle ∈ titles ∧ coriolisTitle ∈ titles ∧
    fermi1Title ∈ titles ∧ fermi2Title ∈ titles := by simp [titles]
  have hnil : [] ∉ B := fun h => rowHead_nonempty (h2 _ h) rfl
  unfold titles at dist
  simp only [List.nodup_cons, List.mem_cons, List.not_mem_nil, or_false, not_or] at dist
  obtain ⟨⟨d12, d13, d14, d15, d16, d17⟩, ⟨d23, d24, d25, d26, d27⟩, ⟨d34, d35, d36, d37⟩, ⟨d45, d46, d47⟩, ⟨d56, d57⟩,
    d67, -⟩ := dist
  generalize vibTitle = t1 at *
  generalize rotTitle = t2 at *
  generalize quarticTitle = t3 at *
  generalize sexticTitle = t4 at *
  generalize coriolisTitle = t5 at *
  generalize fermi1Title = t6 at *
  generalize fermi2Title = t7 at *
  generalize titles = N at *
  obtain ⟨m1, m2, m3, m4, m5, m6, m7⟩ := hm
  have out' : ∀ {L : List Text}, (∀ l ∈ L, l ∉ N) → ∀ t ∈ N, t ∉ L := fun h t ht hl => h t hl ht
  have ne : ∀ {a t : Text}, a ∉ N → t ∈ N → ¬ t = a := fun h ht e => h (e ▸ ht)
  refine ⟨?_, ?_, ?_, ?_, ?_, ?_, ?_⟩
  · have := between_eq (a := t1) (b := t2) (pre := G) (body := T :: F ++ [[], Z, []]) (post := rots ++ [[], t3] ++ Q ++
      [[], t4] ++ S ++ [[], [], t5] ++ cors ++ [[], t6] ++ A ++ [[], t7] ++ B) (out' hG _ m1)
      (by simp [ne hT m2, out' hF' _ m2, ne nil m2, ne hZ m2])
    simp only [List.append_assoc, List.cons_append, List.nil_append] at this ⊢
    rw [this]
    simp [filter_rows hF, hZn, hTn]
  · have := between_eq (a := t2) (b := t3) (pre := G ++ [t1, T] ++ F ++ [[], Z, []]) (body := rots ++ [[]]) (post := Q ++ [[], t4] ++ S ++ [[], [], t5] ++ cors ++ [[], t6] ++ A ++ [[], t7] ++ B)
      (by simp [ne hT m2, ne nil m2, ne hZ m2, out' hG _ m2, out' hF' _ m2, out' hR1 _ m2, out' hQ _ m2, out' hS _ m2, out' hC' _ m2, out' hA' _ m2, Ne.symm d12, d23, d24, d25, d26, d27])
      (by simp [ne hT m3, ne nil m3, ne hZ m3, out' hG _ m3, out' hF' _ m3, out' hR1 _ m3, out' hQ _ m3, out' hS _ m3, out' hC' _ m3, out' hA' _ m3, Ne.symm d13, Ne.symm d23, d34, d35, d36, d37])
    simp only [List.append_assoc, List.cons_append, List.nil_append] at this ⊢
    rw [this]
    simp [filter_full hR2]
  · have := between_eq (a := t3) (b := t4) (pre := G ++ [t1, T] ++ F ++ [[], Z, []] ++ [t2] ++ rots ++ [[]]) (body := Q ++ [[]]) (post := S ++ [[], [], t5] ++ cors ++ [[], t6] ++ A ++ [[], t7] ++ B)
      (by simp [ne hT m3, ne nil m3, ne hZ m3, out' hG _ m3, out' hF' _ m3, out' hR1 _ m3, out' hQ _ m3, out' hS _ m3, out' hC' _ m3, out' hA' _ m3, Ne.symm d13, Ne.symm d23, d34, d35, d36, d37])
      (by simp [ne hT m4, ne nil m4, ne hZ m4, out' hG _ m4, out' hF' _ m4, out' hR1 _ m4, out' hQ _ m4, out' hS _ m4, out' hC' _ m4, out' hA' _ m4, Ne.symm d14, Ne.symm d24, Ne.symm d34, d45, d46, d47])
    simp only [List.append_assoc, List.cons_append, List.nil_append] at this ⊢
    rw [this]
    simp []
  · have := between_eq (a := t4) (b := t5) (pre := G ++ [t1, T] ++ F ++ [[], Z, []] ++ [t2] ++ rots ++ [[]] ++ [t3] ++ Q ++ [[]]) (body := S ++ [[], []]) (post := cors ++ [[], t6] ++ A ++ [[], t7] ++ B)
      (by simp [ne hT m4, ne nil m4, ne hZ m4, out' hG _ m4, out' hF' _ m4, out' hR1 _ m4, out' hQ _ m4, out' hS _ m4, out' hC' _ m4, out' hA' _ m4, Ne.symm d14, Ne.symm d24, Ne.symm d34, d45, d46, d47])
      (by simp [ne hT m5, ne nil m5, ne hZ m5, out' hG _ m5, out' hF' _ m5, out' hR1 _ m5, out' hQ _ m5, out' hS _ m5, out' hC' _ m5, out' hA' _ m5, Ne.symm d15, Ne.symm d25, Ne.symm d35, Ne.symm d45, d56, d57])
    simp only [List.append_assoc, List.cons_append, List.nil_append] at this ⊢
    rw [this]
    simp []
  · have := between_eq (a := t5) (b := t6) (pre := G ++ [t1, T] ++ F ++ [[], Z, []] ++ [t2] ++ rots ++ [[]] ++ [t3] ++ Q ++ [[]] ++ [t4] ++ S ++ [[], []]) (body := cors ++ [[]]) (post := A ++ [[], t7] ++ B)
      (by simp [ne hT m5, ne nil m5, ne hZ m5, out' hG _ m5, out' hF' _ m5, out' hR1 _ m5, out' hQ _ m5, out' hS _ m5, out' hC' _ m5, out' hA' _ m5, Ne.symm d15, Ne.symm d25, Ne.symm d35, Ne.symm d45, d56, d57])
      (by simp [ne hT m6, ne nil m6, ne hZ m6, out' hG _ m6, out' hF' _ m6, out' hR1 _ m6, out' hQ _ m6, out' hS _ m6, out' hC' _ m6, out' hA' _ m6, Ne.symm d16, Ne.symm d26, Ne.symm d36, Ne.symm d46, Ne.symm d56, d67])
    simp only [List.append_assoc, List.cons_append, List.nil_append] at this ⊢
    rw [this]
    simp [filter_rows hC]
  · have := between_eq (a := t6) (b := t7) (pre := G ++ [t1, T] ++ F ++ [[], Z, []] ++ [t2] ++ rots ++ [[]] ++ [t3] ++ Q ++ [[]] ++ [t4] ++ S ++ [[], []] ++ [t5] ++ cors ++ [[]]) (body := A ++ [[]]) (post := B)
      (by simp [ne hT m6, ne nil m6, ne hZ m6, out' hG _ m6, out' hF' _ m6, out' hR1 _ m6, out' hQ _ m6, out' hS _ m6, out' hC' _ m6, out' hA' _ m6, Ne.symm d16, Ne.symm d26, Ne.symm d36, Ne.symm d46, Ne.symm d56, d67])
      (by simp [ne hT m7, ne nil m7, ne hZ m7, out' hG _ m7, out' hF' _ m7, out' hR1 _ m7, out' hQ _ m7, out' hS _ m7, out' hC' _ m7, out' hA' _ m7, Ne.symm d17, Ne.symm d27, Ne.symm d37, Ne.symm d47, Ne.symm d57, Ne.symm d67])
    simp only [List.append_assoc, List.cons_append, List.nil_append] at this ⊢
    rw [this]
    simp [filter_rows h1]
  · have := between_end (a := t7) (b := []) (pre := G ++ [t1, T] ++ F ++ [[], Z, []] ++ [t2] ++ rots ++ [[]] ++ [t3] ++ Q ++ [[]] ++ [t4] ++ S ++ [[], []] ++ [t5] ++ cors ++ [[]] ++ [t6] ++ A ++ [[]]) (body := B)
      (by simp [ne hT m7, ne nil m7, ne hZ m7, out' hG _ m7, out' hF' _ m7, out' hR1 _ m7, out' hQ _ m7, out' hS _ m7, out' hC' _ m7, out' hA' _ m7, Ne.symm d17, Ne.symm d27, Ne.symm d37, Ne.symm d47, Ne.symm d57, Ne.symm d67]) hnil
    simp only [List.append_assoc, List.cons_append, List.nil_append] at this ⊢
    rw [this, filter_rows h2]

theorem padCenter_length (w : Nat) (t : Text) (h : t.length ≤ w) : (padCenter w t).length = w := by
  unfold padCenter
  simp only [List.length_append, List.length_replicate]
  omega

theorem fieldsOf_blanks (k : Nat) : fieldsOf (List.replicate k ' ') = [] := by
  induction k with
  | zero => rfl
  | succ k ih => rw [List.replicate_succ, fieldsOf_skip _ _ isWs_blank, ih]

theorem fieldsOf_center (w : Nat) (t : Text) (h : t ≠ [] ∧ ∀ c ∈ t, isWs c = false) : fieldsOf (padCenter w t) = [t] := by
  have key : ∀ k, fieldsOf (t ++ List.replicate k ' ') = [t] := by
    intro k
    rw [fieldsOf_word _ _ h.1 h.2, fieldsOf_blanks]
    intro c hc
    rw [List.eq_of_mem_replicate (List.mem_of_mem_head? hc)]
    exact isWs_blank
  unfold padCenter
  rw [List.append_assoc]
  have skip : ∀ (k : Nat) (u : Text), fieldsOf (List.replicate k ' ' ++ u) = fieldsOf u := by
    intro k u
    induction k with
    | zero => rfl
    | succ k ih => rw [List.replicate_succ, List.cons_append, fieldsOf_skip _ _ isWs_blank, ih]
  rw [skip, key]

theorem cell_center {P : Text → Prop} (pre post t : Text) (a b w : Nat) (ha : pre.length = a) (hb : a + w = b)
    (hw : t.length ≤ w) (ht : t ≠ [] ∧ ∀ c ∈ t, isWs c = false) (hP : P t) :
    Cell P (pre ++ padCenter w t ++ post) a b :=
  ⟨t, by rw [columns_mid _ _ _ _ _ ha (by rw [padCenter_length _ _ hw, hb]), fieldsOf_center _ _ ht], hP⟩

end Report

end Verif
