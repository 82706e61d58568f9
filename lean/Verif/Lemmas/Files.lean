import Verif.Spec.Files
import Verif.Lemmas.InputShow
import Verif.Lemmas.Load
import Verif.Props.Index

/-!
# Lemmas on force-constant files and listings
-/

namespace Verif

variable {α : Type} [Arith α]

theorem ascii_eq (c : Char) : [9, 10, 12, 13, 32].contains c.toNat = isAsciiWs c := by
  rw [Bool.eq_iff_iff]
  simp only [isAsciiWs, List.contains_cons, List.contains_nil, Bool.or_false, Bool.or_eq_true, beq_iff_eq]
  omega

theorem isAsciiWs_isWs (c : Char) (h : isAsciiWs c = true) : isWs c = true := by
  simp only [isAsciiWs, isWs, Bool.or_eq_true, beq_iff_eq, Bool.and_eq_true, decide_eq_true_eq] at h ⊢
  omega

theorem isAsciiWs_blank : isAsciiWs ' ' = true ∧ isAsciiWs '\n' = true := by decide

attribute [local irreducible] isAsciiWs

theorem splitAsciiGo_eq (w cs : Text) : splitAsciiGo w cs =
    (List.modifyHead (w.reverse ++ ·) (cs.splitOnP fun c => isAsciiWs c)).filter fun w => !w.isEmpty := by
  induction cs generalizing w with
  | nil =>
    cases w <;> simp [splitAsciiGo]
  | cons c cs ih =>
    rw [List.splitOnP_cons_eq_if_modifyHead, splitAsciiGo]
    by_cases hc : isAsciiWs c
    · simp only [hc, if_true, ih, List.modifyHead_cons]
      have e : List.modifyHead (([] : Text).reverse ++ ·) (cs.splitOnP fun c => isAsciiWs c) =
          cs.splitOnP fun c => isAsciiWs c := by
        cases cs.splitOnP fun c => isAsciiWs c <;> rfl
      rw [e]
      cases w with
      | nil => simp
      | cons d w => simp
    · simp only [hc, if_false, ih, Bool.false_eq_true]
      congr 1
      cases cs.splitOnP fun c => isAsciiWs c <;> simp

theorem splitAscii_fields (t : Text) : splitAscii t = asciiFields t := by
  unfold splitAscii asciiFields
  rw [splitAsciiGo_eq]
  simp only [ascii_eq]
  congr 1
  cases t.splitOnP fun c => isAsciiWs c <;> rfl

theorem splitAsciiGo_word (w u rest : Text) (hn : ∀ c ∈ u, isAsciiWs c = false) :
    splitAsciiGo w (u ++ rest) = splitAsciiGo (u.reverse ++ w) rest := by
  induction u generalizing w with
  | nil => rfl
  | cons c u ih =>
    rw [List.cons_append, splitAsciiGo, if_neg (by simp [hn c (by simp)]), ih _ fun d hd => hn d (by simp [hd])]
    simp

theorem splitAscii_blanks (k : Nat) (t : Text) : splitAscii (List.replicate k ' ' ++ t) = splitAscii t := by
  induction k with
  | zero => rfl
  | succ k ih =>
    rw [List.replicate_succ, List.cons_append, splitAscii, splitAsciiGo, if_pos isAsciiWs_blank.1]
    exact ih

theorem word_ascii {u : Text} (h : Word u) : ∀ c ∈ u, isAsciiWs c = false := by
  intro c hc
  by_contra hn
  have := isAsciiWs_isWs c (by simpa using hn)
  rw [h.2.1 c hc] at this
  cases this

theorem splitAscii_line (w : Nat) (u rest : Text) (h : Word u) :
    splitAscii (padLeft w u ++ ['\n'] ++ rest) = u :: splitAscii rest := by
  unfold padLeft
  rw [List.append_assoc, List.append_assoc, splitAscii_blanks, splitAscii, splitAsciiGo_word _ _ _ (word_ascii h),
    List.append_nil, List.singleton_append, splitAsciiGo, if_pos isAsciiWs_blank.2, if_neg (by simpa using h.1),
    List.reverse_reverse]
  rfl

theorem showPrec_field (p : Nat) (q : ℚ) : RealField (showPrec p q) (printedValue p q) ∧ Word (showPrec p q) := by
  unfold showPrec
  split
  · rename_i h
    subst h
    obtain ⟨is, i0, i1, i2, -⟩ := showNat_spec (roundEven |q|)
    have frac : Fraction (showNat (roundEven |q|)) (roundEven |q|) :=
      ⟨_, [], [], is, [], 0, i1, ⟨by simp, rfl⟩, by simpa using i0, .inl ⟨rfl, rfl⟩, .inl (by simp), by simp [i2]⟩
    have w := digits_word i1 i0
    unfold printedValue
    rw [pow_zero, mul_one, div_one]
    split
    · exact ⟨.inr ⟨_, _, frac, .inr ⟨rfl, rfl⟩⟩, word_minus w⟩
    · exact ⟨.inl frac, w⟩
  · exact showFixed_field p q

theorem displayPacked_fields (w p : Option Nat) (l : List ℚ) :
    splitAscii (displayPacked w p l) = l.map (showPrec (p.getD 8)) := by
  induction l with
  | nil => rfl
  | cons v l ih =>
    unfold displayPacked
    rw [List.flatMap_cons, splitAscii_line _ _ _ (showPrec_field _ _).2, List.map_cons]
    exact congrArg _ ih

theorem loadVec_iff (t : Text) (l : List ℚ) : loadVec t = some l ↔ List.Forall₂ RealField (asciiFields t) l := by
  unfold loadVec
  rw [splitAscii_fields, mapM_forall₂]
  simp only [parseF64_iff]

theorem loadVec_display (w p : Option Nat) (l : List ℚ) :
    loadVec (displayPacked w p l) = some (l.map (printedValue (p.getD 8))) := by
  unfold loadVec
  rw [displayPacked_fields, mapM_forall₂, List.forall₂_map_left_iff, List.forall₂_map_right_iff, List.forall₂_same]
  exact fun v _ => (parseF64_iff _ _).2 (showPrec_field _ _).1

theorem printedValue_printed (p : Nat) (q : ℚ) : Printed p q (printedValue p q) :=
  ⟨printedValue_int p q, printedValue_near p q⟩

theorem printed_same {p : Nat} {q q' : ℚ} (h : Printed p q q') (hq : ∃ k : ℤ, q = k / 10 ^ p) : q' = q := by
  obtain ⟨⟨k', hk'⟩, hn⟩ := h
  obtain ⟨k, hk⟩ := hq
  have hp : (0 : ℚ) < 10 ^ p := by positivity
  rw [hk, hk', ← sub_div, abs_div, abs_of_pos hp, div_le_div_iff_of_pos_right hp] at hn
  have : |k' - k| < 1 := by
    have h2 : ((|k' - k| : ℤ) : ℚ) ≤ 1 / 2 := by push_cast; exact hn
    have h3 : ((|k' - k| : ℤ) : ℚ) < (1 : ℤ) := by push_cast; push_cast at h2; linarith
    exact_mod_cast h3
  have : k' = k := by
    have := Int.abs_lt_one_iff.1 this
    omega
  rw [hk, hk', this]

/-! ## Listings -/

theorem foldlM_rows {X V R : Type} (g : X → Option V) (p : V → Bool) (row : X → V → R) (xs : List X) (acc out : List R) :
    xs.foldlM (fun rows x => do
      let v ← g x
      return if p v = true then rows ++ [row x v] else rows) acc = some out ↔
    (∀ x ∈ xs, ∃ v, g x = some v) ∧
      out = acc ++ xs.filterMap fun x => (g x).bind fun v => if p v = true then some (row x v) else none := by
  induction xs generalizing acc with
  | nil => simp [eq_comm (a := out)]
  | cons x xs ih =>
    rw [List.foldlM_cons]
    cases hg : g x with
    | none =>
      simp [hg]
    | some v =>
      simp only [Option.bind_eq_bind, Option.bind_some, Option.pure_def, List.filterMap_cons, hg, List.forall_mem_cons,
        Option.some.injEq, exists_eq', true_and] at ih ⊢
      rw [ih]
      by_cases hp : p v = true
      · simp [hp]
      · simp [hp]

theorem mapM_rows {X V R : Type} (g : X → Option V) (row : X → V → R) (xs : List X) (out : List R) :
    xs.mapM (fun x => do return row x (← g x)) = some out ↔
    (∀ x ∈ xs, ∃ v, g x = some v) ∧ out = xs.filterMap fun x => (g x).map (row x) := by
  induction xs generalizing out with
  | nil =>
    rw [List.mapM_nil, List.filterMap_nil, Option.pure_def, Option.some.injEq]
    exact ⟨fun h => ⟨by simp, h.symm⟩, fun h => h.2.symm⟩
  | cons x xs ih =>
    rw [List.mapM_cons]
    cases hg : g x with
    | none => simp [hg]
    | some v =>
      simp only [Option.bind_eq_bind, Option.bind_some, Option.pure_def, Option.bind_eq_some_iff, Option.some.injEq,
        List.filterMap_cons, hg, List.forall_mem_cons, exists_eq', true_and, Option.map_some] at ih ⊢
      constructor
      · rintro ⟨t, ht, rfl⟩
        obtain ⟨h1, rfl⟩ := (ih t).1 ht
        exact ⟨h1, rfl⟩
      · rintro ⟨h1, rfl⟩
        exact ⟨_, (ih _).2 ⟨h1, rfl⟩, rfl⟩

theorem nest3_sorted (n : Nat) : (nest3 n).Pairwise fun x y =>
    x.1 < y.1 ∨ x.1 = y.1 ∧ (x.2.1 < y.2.1 ∨ x.2.1 = y.2.1 ∧ x.2.2 < y.2.2) := by
  unfold nest3
  rw [List.pairwise_flatMap]
  refine ⟨fun i _ => ?_, List.pairwise_lt_range.imp fun {a b} h x hx y hy => ?_⟩
  · rw [List.pairwise_flatMap]
    refine ⟨fun j _ => ?_, List.pairwise_lt_range.imp fun {a b} h x hx y hy => ?_⟩
    · rw [List.pairwise_map]
      exact List.pairwise_lt_range.imp fun h => by simpa using h
    · simp only [List.mem_map] at hx hy
      obtain ⟨_, _, rfl⟩ := hx
      obtain ⟨_, _, rfl⟩ := hy
      exact .inr ⟨rfl, .inl h⟩
  · simp only [List.mem_flatMap, List.mem_map] at hx hy
    obtain ⟨_, _, _, _, rfl⟩ := hx
    obtain ⟨_, _, _, _, rfl⟩ := hy
    exact .inl h

theorem nest4_sorted (n : Nat) : (nest4 n).Pairwise fun x y =>
    x.1 < y.1 ∨ x.1 = y.1 ∧ (x.2.1 < y.2.1 ∨ x.2.1 = y.2.1 ∧ (x.2.2.1 < y.2.2.1 ∨
      x.2.2.1 = y.2.2.1 ∧ x.2.2.2 < y.2.2.2)) := by
  unfold nest4
  rw [List.pairwise_flatMap]
  refine ⟨fun i _ => ?_, List.pairwise_lt_range.imp fun {a b} h x hx y hy => ?_⟩
  · rw [List.pairwise_flatMap]
    refine ⟨fun j _ => ?_, List.pairwise_lt_range.imp fun {a b} h x hx y hy => ?_⟩
    · rw [List.pairwise_flatMap]
      refine ⟨fun k _ => ?_, List.pairwise_lt_range.imp fun {a b} h x hx y hy => ?_⟩
      · rw [List.pairwise_map]
        exact List.pairwise_lt_range.imp fun h => by simpa using h
      · simp only [List.mem_map] at hx hy
        obtain ⟨_, _, rfl⟩ := hx
        obtain ⟨_, _, rfl⟩ := hy
        exact .inr ⟨rfl, .inr ⟨rfl, .inl h⟩⟩
    · simp only [List.mem_flatMap, List.mem_map] at hx hy
      obtain ⟨_, _, _, _, rfl⟩ := hx
      obtain ⟨_, _, _, _, rfl⟩ := hy
      exact .inr ⟨rfl, .inl h⟩
  · simp only [List.mem_flatMap, List.mem_map] at hx hy
    obtain ⟨_, _, _, _, _, _, rfl⟩ := hx
    obtain ⟨_, _, _, _, _, _, rfl⟩ := hy
    exact .inl h

theorem lex3 {x y : Nat × Nat × Nat} (t : List Nat)
    (h : x.1 < y.1 ∨ x.1 = y.1 ∧ (x.2.1 < y.2.1 ∨ x.2.1 = y.2.1 ∧ x.2.2 < y.2.2)) :
    List.Lex (· < ·) ((x.1 + 1) :: (x.2.1 + 1) :: (x.2.2 + 1) :: t) ((y.1 + 1) :: (y.2.1 + 1) :: (y.2.2 + 1) :: t) := by
  rcases h with h | ⟨h1, h | ⟨h2, h⟩⟩
  · exact .rel (by omega)
  · rw [h1]; exact .cons (.rel (by omega))
  · rw [h1, h2]; exact .cons (.cons (.rel (by omega)))

theorem lex4 {x y : Nat × Nat × Nat × Nat}
    (h : x.1 < y.1 ∨ x.1 = y.1 ∧ (x.2.1 < y.2.1 ∨ x.2.1 = y.2.1 ∧ (x.2.2.1 < y.2.2.1 ∨
      x.2.2.1 = y.2.2.1 ∧ x.2.2.2 < y.2.2.2))) :
    List.Lex (· < ·) [x.1 + 1, x.2.1 + 1, x.2.2.1 + 1, x.2.2.2 + 1] [y.1 + 1, y.2.1 + 1, y.2.2.1 + 1, y.2.2.2 + 1] := by
  rcases h with h | ⟨h1, h | ⟨h2, h | ⟨h3, h⟩⟩⟩
  · exact .rel (by omega)
  · rw [h1]; exact .cons (.rel (by omega))
  · rw [h1, h2]; exact .cons (.cons (.rel (by omega)))
  · rw [h1, h2, h3]; exact .cons (.cons (.cons (.rel (by omega))))

theorem gets3_iff {β : Type} (r : Nat) (f : F3qcm β) :
    (∀ x ∈ nest3 r, ∃ v, f.get x.1 x.2.1 x.2.2 = some v) ↔ r * (r + 1) * (r + 2) / 6 ≤ f.length := by
  constructor
  · intro h
    by_contra hc
    obtain ⟨a, b, c, ha, hb, hc', hs⟩ := (c01_slots_dense r f.length).1 (by omega)
    obtain ⟨x, y, z, h1, h2, hp⟩ := exists_sorted3 a b c
    have hz : z ∈ [a, b, c] := hp.mem_iff.mpr (by simp)
    have hzn : z < r := by simp at hz; omega
    obtain ⟨v, hv⟩ := h (z, y, x) (mem_nest3.2 ⟨h1, h2, hzn⟩)
    have hp3 : [a, b, c].Perm [z, y, x] := hp.trans (List.reverse_perm [z, y, x])
    rw [find3_perm hp3] at hs
    simp [F3qcm.get, hs] at hv
  · rintro h ⟨i, j, k⟩ hx
    obtain ⟨h1, h2, h3⟩ := mem_nest3.1 hx
    have : find3 i j k < f.length := lt_of_lt_of_le ((c01_slots_dense r _).2 ⟨i, j, k, h3, by omega, by omega, rfl⟩) h
    exact ⟨f[find3 i j k], by simp [F3qcm.get, this]⟩

theorem gets4_iff {β : Type} (r : Nat) (f : F4qcm β) :
    (∀ x ∈ nest4 r, ∃ v, f.get x.1 x.2.1 x.2.2.1 x.2.2.2 = some v) ↔
      r * (r + 1) * (r + 2) * (r + 3) / 24 ≤ f.length := by
  constructor
  · intro h
    by_contra hc
    obtain ⟨a, b, c, d, ha, hb, hc', hd, hs⟩ := (c02_slots_dense r f.length).1 (by omega)
    obtain ⟨x, y, z, w, h1, h2, h3, hp⟩ := exists_sorted4 a b c d
    have hz : w ∈ [a, b, c, d] := hp.mem_iff.mpr (by simp)
    have hzn : w < r := by simp at hz; omega
    obtain ⟨v, hv⟩ := h (w, z, y, x) (mem_nest4.2 ⟨h1, h2, h3, hzn⟩)
    have hp3 : [a, b, c, d].Perm [w, z, y, x] := hp.trans (List.reverse_perm [w, z, y, x])
    rw [find4_perm hp3] at hs
    simp [F4qcm.get, hs] at hv
  · rintro h ⟨i, j, k, l⟩ hx
    obtain ⟨h1, h2, h3, h4⟩ := mem_nest4.1 hx
    have : find4 i j k l < f.length :=
      lt_of_lt_of_le ((c02_slots_dense r _).2 ⟨i, j, k, l, h4, by omega, by omega, by omega, rfl⟩) h
    exact ⟨f[find4 i j k l], by simp [F4qcm.get, this]⟩

theorem gaussCubic_iff (r : Nat) (f : F3qcm α) (out : List (FcRow α)) : gaussCubic r f = some out ↔
    (∀ x ∈ nest3 r, ∃ v, f.get x.1 x.2.1 x.2.2 = some v) ∧
      out = (nest3 r).filterMap fun x => (f.get x.1 x.2.1 x.2.2).bind fun v =>
        if Arith.lt (Arith.lit (1 / 10 ^ 6)) (Arith.abs v) = true then some ⟨[x.1 + 1, x.2.1 + 1, x.2.2 + 1], v⟩
        else none :=
  foldlM_rows (fun x : Nat × Nat × Nat => f.get x.1 x.2.1 x.2.2)
    (fun v => Arith.lt (Arith.lit (1 / 10 ^ 6)) (Arith.abs v))
    (fun x v => (⟨[x.1 + 1, x.2.1 + 1, x.2.2 + 1], v⟩ : FcRow α)) (nest3 r) [] out

theorem gaussQuartic_iff (r : Nat) (f : F4qcm α) (out : List (FcRow α)) : gaussQuartic r f = some out ↔
    (∀ x ∈ nest4 r, ∃ v, f.get x.1 x.2.1 x.2.2.1 x.2.2.2 = some v) ∧
      out = (nest4 r).filterMap fun x => (f.get x.1 x.2.1 x.2.2.1 x.2.2.2).bind fun v =>
        if Arith.lt (Arith.lit (1 / 10 ^ 6)) (Arith.abs v) = true then
          some ⟨[x.1 + 1, x.2.1 + 1, x.2.2.1 + 1, x.2.2.2 + 1], v⟩
        else none :=
  foldlM_rows (fun x : Nat × Nat × Nat × Nat => f.get x.1 x.2.1 x.2.2.1 x.2.2.2)
    (fun v => Arith.lt (Arith.lit (1 / 10 ^ 6)) (Arith.abs v))
    (fun x v => (⟨[x.1 + 1, x.2.1 + 1, x.2.2.1 + 1, x.2.2.2 + 1], v⟩ : FcRow α)) (nest4 r) [] out

theorem rowText_shows (row : FcRow ℚ) (hn : ∀ n ∈ row.nums, n ≤ 9999) (h1 : -99999 ≤ row.val) (h2 : row.val ≤ 999999) :
    ShowsRow row.text row.nums row.val := by
  have e : row.text = (row.nums.map (fun n => (5, showNat n)) ++ [(20, showFixed 12 row.val)] : List (Nat × Text)).flatMap
      fun p => padLeft p.1 p.2 := by
    simp [FcRow.text, List.flatMap_map]
  have len : (showFixed 12 row.val).length < 20 := by
    have := showFixed_length 12 5 (by norm_num) row.val (by norm_num; linarith) (by norm_num; linarith)
    omega
  refine ⟨row.nums.map showNat, showFixed 12 row.val, _, ?_, ?_, (showFixed_field 12 row.val).1, printedValue_printed _ _⟩
  · rw [e, padded_fields]
    · simp
    · intro p hp
      rcases List.mem_append.1 hp with hp | hp
      · obtain ⟨n, hm, rfl⟩ := List.mem_map.1 hp
        have := hn n hm
        exact (showNat_field n (by omega)).2
      · rw [List.mem_singleton.1 hp]
        exact (showFixed_field _ _).2
    · intro p hp
      rcases List.mem_append.1 (List.mem_of_mem_tail hp) with hp | hp
      · obtain ⟨n, hm, rfl⟩ := List.mem_map.1 hp
        have := hn n hm
        have := showNat_length n 4 (by norm_num) (by omega)
        simp only
        omega
      · rw [List.mem_singleton.1 hp]
        exact len
  · rw [List.forall₂_map_left_iff, List.forall₂_same]
    intro n hm
    have := hn n hm
    exact (showNat_field n (by omega)).1

end Verif
