import Verif.Model.Listing
import Verif.Props.Print
import Verif.Props.Input

/-!
# C112: the listings of states tell the states apart
-/

namespace Verif

theorem showNat_chars (n : Nat) : ',' ∉ showNat n ∧ ')' ∉ showNat n ∧ ':' ∉ showNat n ∧ '\n' ∉ showNat n := by
  obtain ⟨ds, -, d1, -⟩ := showNat_spec n
  have key : ∀ c ∈ showNat n, c ∈ (List.range 10).map Nat.digitChar := fun c hc => by
    rw [d1.2, List.mem_map] at hc
    obtain ⟨d, hd, rfl⟩ := hc
    exact List.mem_map.2 ⟨d, List.mem_range.2 (d1.1 d hd), rfl⟩
  refine ⟨fun h => ?_, fun h => ?_, fun h => ?_, fun h => ?_⟩ <;> exact absurd (key _ h) (by decide)

theorem showNat_inj {m n : Nat} (h : showNat m = showNat n) : m = n := by
  obtain ⟨ds, -, d1, d2, -⟩ := showNat_spec m
  obtain ⟨es, -, e1, e2, -⟩ := showNat_spec n
  have a := (digitsVal_iff _ m).2 ⟨ds, d1, d2.symm⟩
  have b := (digitsVal_iff _ n).2 ⟨es, e1, e2.symm⟩
  rw [h, b] at a
  exact (Option.some.inj a).symm

/-- Texts that end at the first occurrence of a character. -/
theorem cut_at {c : Char} {a b r s : Text} (ha : c ∉ a) (hb : c ∉ b) (h : a ++ c :: r = b ++ c :: s) : a = b ∧ r = s := by
  induction a generalizing b with
  | nil =>
    cases b with
    | nil => exact ⟨rfl, (List.cons.inj h).2⟩
    | cons y b => exact absurd (List.cons.inj h).1 (by simp at hb; exact hb.1)
  | cons x a ih =>
    cases b with
    | nil => exact absurd (List.cons.inj h).1.symm (by simp at ha; exact ha.1)
    | cons y b =>
      obtain ⟨e1, e2⟩ := List.cons.inj h
      obtain ⟨e3, e4⟩ := ih (by simp at ha; exact ha.2) (by simp at hb; exact hb.2) e2
      exact ⟨by rw [e1, e3], e4⟩

theorem pairText_cut {p q : Nat × Nat} {r s : Text} (h : pairText p ++ r = pairText q ++ s) : p = q ∧ r = s := by
  unfold pairText at h
  simp only [List.cons_append, List.append_assoc, List.nil_append] at h
  obtain ⟨e1, h⟩ := cut_at (showNat_chars _).1 (showNat_chars _).1 (List.cons.inj h).2
  obtain ⟨e2, h⟩ := cut_at (showNat_chars _).2.1 (showNat_chars _).2.1 h
  exact ⟨Prod.ext (showNat_inj e1) (showNat_inj e2), h⟩

theorem pairs_inj {v w : List (Nat × Nat)} (h : v.flatMap pairText = w.flatMap pairText) : v = w := by
  induction v generalizing w with
  | nil =>
    cases w with
    | nil => rfl
    | cons q w => simp [pairText] at h
  | cons p v ih =>
    cases w with
    | nil => simp [pairText] at h
    | cons q w =>
      rw [List.flatMap_cons, List.flatMap_cons] at h
      obtain ⟨rfl, h'⟩ := pairText_cut h
      rw [ih h']

theorem pairs_newline (v : List (Nat × Nat)) : '\n' ∉ v.flatMap pairText := by
  rw [List.mem_flatMap]
  rintro ⟨p, -, h⟩
  have a := (showNat_chars p.1).2.2.2
  have b := (showNat_chars p.2).2.2.2
  simp [pairText, a, b] at h

/-- The listing of doubly degenerate states, numbered from `k`. -/
theorem showI2_lines (v : List (List (Nat × Nat))) (k : Nat) :
    (v.zipIdx k).mapM (fun s => i2Line s.2 s.1) =
      some ((v.zipIdx k).map fun s => showNat s.2 ++ ':' :: s.1.flatMap pairText ++ ['\n']) := by
  induction v generalizing k with
  | nil => rfl
  | cons s v ih =>
    rw [List.zipIdx_cons, List.mapM_cons, ih (k + 1)]
    rfl

/-- C112: the listing of states of doubly degenerate modes determines the states, whatever their number, lengths and quanta. -/
theorem c112_doubly (v w : List (List (Nat × Nat))) : (showI2states v).isSome ∧ (showI2states v = showI2states w → v = w) := by
  unfold showI2states
  simp only [showI2_lines, Option.bind_eq_bind, Option.bind_some, Option.pure_def]
  refine ⟨rfl, fun h => ?_⟩
  replace h := Option.some.inj h
  generalize 0 = k at h
  induction v generalizing w k with
  | nil =>
    cases w with
    | nil => rfl
    | cons t w => simp at h
  | cons s v ih =>
    cases w with
    | nil => simp at h
    | cons t w =>
      rw [List.zipIdx_cons, List.zipIdx_cons, List.map_cons, List.map_cons, List.flatten_cons, List.flatten_cons] at h
      simp only [List.append_assoc, List.cons_append, List.nil_append] at h
      have h := (List.cons.inj (List.append_cancel_left h)).2
      obtain ⟨e, h⟩ := cut_at (pairs_newline s) (pairs_newline t) h
      rw [pairs_inj e, ih w (k + 1) ?_]
      simpa only [List.append_assoc, List.cons_append, List.nil_append] using h

/-- Two listings of states with the same letters in different places differ. -/
example : showI2states [[(1, 0), (0, 0)], [(0, 0)]] ≠ showI2states [[(1, 0)], [(0, 0), (0, 0)]] :=
  fun h => absurd ((c112_doubly _ _).2 h) (by decide)

theorem showI1_text (v : List (List Nat)) :
    showI1states v = some (v.flatten.flatMap fun n => padLeft 5 (showNat n)) := by
  unfold showI1states
  have : v.mapM (fun s => showState (.i1st s)) = some (v.map fun s => s.flatMap fun n => padLeft 5 (showNat n)) := by
    induction v with
    | nil => rfl
    | cons s v ih => rw [List.mapM_cons, ih]; rfl
  rw [this]
  simp only [Option.bind_eq_bind, Option.bind_some, Option.pure_def]
  congr 1
  clear this
  induction v with
  | nil => rfl
  | cons s v ih => rw [List.map_cons, List.flatten_cons, List.flatten_cons, List.flatMap_append, ih]

theorem padded_inj {m n : Nat} (h : padLeft 5 (showNat m) = padLeft 5 (showNat n)) : m = n := by
  have e := congrArg fieldsOf h
  rw [fieldsOf_pad _ _ (word_ok (showNat_word m)), fieldsOf_pad _ _ (word_ok (showNat_word n))] at e
  exact showNat_inj (List.cons.inj e).1

theorem columns_inj {v w : List Nat} (hv : ∀ n ∈ v, n < 10 ^ 5) (hw : ∀ n ∈ w, n < 10 ^ 5)
    (h : (v.flatMap fun n => padLeft 5 (showNat n)) = w.flatMap fun n => padLeft 5 (showNat n)) : v = w := by
  have len : ∀ n, n < 10 ^ 5 → (padLeft 5 (showNat n)).length = 5 := fun n hn =>
    padLeft_length _ _ (showNat_length n 5 (by norm_num) hn)
  induction v generalizing w with
  | nil =>
    cases w with
    | nil => rfl
    | cons q w =>
      have l := congrArg List.length h
      rw [List.flatMap_cons, List.length_append, len q (hw q (by simp)), List.flatMap_nil, List.length_nil] at l
      omega
  | cons p v ih =>
    cases w with
    | nil =>
      have l := congrArg List.length h
      rw [List.flatMap_cons, List.length_append, len p (hv p (by simp)), List.flatMap_nil, List.length_nil] at l
      omega
    | cons q w =>
      rw [List.flatMap_cons, List.flatMap_cons] at h
      obtain ⟨e, h⟩ := List.append_inj h (by rw [len p (hv p (by simp)), len q (hw q (by simp))])
      rw [padded_inj e, ih (fun n hn => hv n (by simp [hn])) (fun n hn => hw n (by simp [hn])) h]

theorem rows_inj {n : Nat} (hn : 0 < n) {v w : List (List Nat)} (hv : ∀ s ∈ v, s.length = n) (hw : ∀ s ∈ w, s.length = n)
    (h : v.flatten = w.flatten) : v = w := by
  induction v generalizing w with
  | nil =>
    cases w with
    | nil => rfl
    | cons t w =>
      have := hw t (by simp)
      have l := congrArg List.length h
      rw [List.flatten_cons, List.length_append, List.flatten_nil, List.length_nil] at l
      omega
  | cons s v ih =>
    have ls := hv s (by simp)
    cases w with
    | nil =>
      have l := congrArg List.length h
      rw [List.flatten_cons, List.length_append, List.flatten_nil, List.length_nil] at l
      omega
    | cons t w =>
      rw [List.flatten_cons, List.flatten_cons] at h
      obtain ⟨rfl, h'⟩ := List.append_inj h (by rw [ls, hw t (by simp)])
      rw [ih (fun s hs => hv s (by simp [hs])) (fun s hs => hw s (by simp [hs])) h']

/-- C112, the part that holds: the listing of states of non-degenerate modes determines the states if all have the same positive
number of modes and less than 100000 quanta in each. Missing: states of different lengths, see `c112_lengths_violated`, and more
quanta, see `c112_quanta_violated`. -/
theorem c112_single_partial (n : Nat) (hn : 0 < n) (v w : List (List Nat)) (hv : ∀ s ∈ v, s.length = n ∧ ∀ q ∈ s, q < 10 ^ 5)
    (hw : ∀ s ∈ w, s.length = n ∧ ∀ q ∈ s, q < 10 ^ 5) :
    (showI1states v).isSome ∧ (showI1states v = showI1states w → v = w) := by
  rw [showI1_text, showI1_text]
  refine ⟨rfl, fun h => rows_inj hn (fun s hs => (hv s hs).1) (fun s hs => (hw s hs).1) (columns_inj ?_ ?_ (Option.some.inj h))⟩
  · intro q hq
    obtain ⟨s, hs, hq⟩ := List.mem_flatten.1 hq
    exact (hv s hs).2 q hq
  · intro q hq
    obtain ⟨s, hs, hq⟩ := List.mem_flatten.1 hq
    exact (hw s hs).2 q hq

/-- Two states of three modes with a few quanta meet the hypotheses. -/
example : ∃ v : List (List Nat), (∀ s ∈ v, s.length = 3 ∧ ∀ q ∈ s, q < 10 ^ 5) ∧ v = [[0, 1, 0], [2, 0, 99999]] :=
  ⟨_, by decide, rfl⟩

/-- C112 is violated: nothing separates the states, so one state of two modes is listed like two states of one mode. -/
theorem c112_lengths_violated : ∃ v w : List (List Nat), (showI1states v).isSome ∧ showI1states v = showI1states w ∧ v ≠ w := by
  refine ⟨[[1, 2]], [[1], [2]], rfl, ?_, by decide⟩
  rw [showI1_text, showI1_text]
  rfl

/-- C112 is violated: large numbers of quanta are not separated either. -/
theorem c112_quanta_violated : ∃ v w : List Nat, (showState (.i1st v)).isSome ∧ showState (.i1st v) = showState (.i1st w) ∧ v ≠ w := by
  refine ⟨[100000, 12345], [10000012345], rfl, ?_, by decide⟩
  decide +kernel

/-- C53 for the default input: writing it, with a geometry and a list of weights added, and reading it back changes nothing: the second
option is not `-1`, so that the atoms keep their default weights whatever the list of weights says. The other options that the source
names are as it says: Cartesian coordinates, fourth derivatives and averaged coordinates; all others are zero. -/
theorem c53_nocurvil (atoms : List InAtom) (ha : ∀ a ∈ atoms, 1 ≤ a.num ∧ a.num < 2 ^ 53 ∧ (-99999 ≤ a.x ∧ a.x ≤ 999999) ∧
      (-99999 ≤ a.y ∧ a.y ≤ 999999) ∧ -99999 ≤ a.z ∧ a.z ≤ 999999) (hw : ∀ a ∈ atoms, a.weight = none)
    (hx : ∀ a ∈ atoms, (∃ k : ℤ, a.x = k / 10 ^ 8) ∧ (∃ k : ℤ, a.y = k / 10 ^ 8) ∧ ∃ k : ℤ, a.z = k / 10 ^ 8)
    (weights : List (Nat × ℚ)) (hp : ∀ p ∈ weights, (p.1 < 2 ^ 64 ∧ -999 ≤ p.2 ∧ p.2 ≤ 9999) ∧ ∃ k : ℤ, p.2 = k / 10 ^ 6) :
    (∃ text, writeInput { Input.nocurvil with atoms := atoms, weights := weights } = some text ∧
      readInput text = some { Input.nocurvil with atoms := atoms, weights := weights }) ∧
    Input.nocurvil.header.length = 30 ∧
    ∀ i < 30, Input.nocurvil.header[i]? = some (if i = 0 then 99 else if i = 7 then 4 else if i = 1 ∨ i = 20 then 1 else 0) := by
  refine ⟨c53_exact_partial _ ⟨?_, ?_, ha, fun p hp' => (hp p hp').1, ?_, ?_, ?_, ?_⟩ rfl hx (fun p hp' => (hp p hp').2) fun i a hi => ?_,
    rfl, ?_⟩
  all_goals try simp [Input.nocurvil, Input.empty]
  · exact hw a (List.mem_of_getElem? hi)
  · decide

/-- A water molecule and a list of weights meet the hypotheses. -/
example : ∃ (atoms : List InAtom) (weights : List (Nat × ℚ)), weights.length = 1 ∧
    (∀ p ∈ weights, (p.1 < 2 ^ 64 ∧ -999 ≤ p.2 ∧ p.2 ≤ 9999) ∧ ∃ k : ℤ, p.2 = k / 10 ^ 6) ∧ atoms.length = 3 ∧ (∀ a ∈ atoms, 1 ≤ a.num ∧ a.num < 2 ^ 53 ∧ (-99999 ≤ a.x ∧ a.x ≤ 999999) ∧
      (-99999 ≤ a.y ∧ a.y ≤ 999999) ∧ -99999 ≤ a.z ∧ a.z ≤ 999999) ∧ (∀ a ∈ atoms, a.weight = none) ∧
    (∀ a ∈ atoms, (∃ k : ℤ, a.x = k / 10 ^ 8) ∧ (∃ k : ℤ, a.y = k / 10 ^ 8) ∧ ∃ k : ℤ, a.z = k / 10 ^ 8) := by
  refine ⟨[⟨8, 0, 0, 0, none⟩, ⟨1, 1, 1 / 2, 0, none⟩, ⟨1, -1, 1 / 2, 0, none⟩], [(1, 16)], rfl, ?_, rfl, ?_, ?_, ?_⟩
  · simp only [List.forall_mem_cons, List.not_mem_nil, false_imp_iff, implies_true, and_true]
    exact ⟨by norm_num, 16000000, by norm_num⟩
  · simp only [List.forall_mem_cons, List.not_mem_nil, false_imp_iff, implies_true]
    norm_num
  · simp
  · simp only [List.forall_mem_cons, List.not_mem_nil, false_imp_iff, implies_true, and_true]
    exact ⟨⟨⟨0, by norm_num⟩, ⟨0, by norm_num⟩, ⟨0, by norm_num⟩⟩, ⟨⟨10 ^ 8, by norm_num⟩, ⟨50000000, by norm_num⟩, ⟨0, by norm_num⟩⟩,
      ⟨-10 ^ 8, by norm_num⟩, ⟨50000000, by norm_num⟩, ⟨0, by norm_num⟩⟩

end Verif
