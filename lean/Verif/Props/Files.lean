import Verif.Lemmas.Files
import Verif.Props.Load

/-!
# C77, C78, C79: force-constant files and listings
-/

namespace Verif

variable {α : Type} [Arith α]

/-! ## C77: files of force constants -/

/-- C77 (reading): a file is read as the list of its numbers, in order, and it is rejected exactly when some field is
not a number. -/
theorem c77_reads (t : Text) (l : List ℚ) : loadVec t = some l ↔ List.Forall₂ RealField (asciiFields t) l :=
  loadVec_iff t l

/-- C77 (reading back): what is written with any width and precision reads back as the same number of values, each
rounded to that precision (eight decimals if none is asked for). -/
theorem c77_reads_back (w p : Option Nat) (l : List ℚ) :
    ∃ l', loadVec (displayPacked w p l) = some l' ∧ List.Forall₂ (Printed (p.getD 8)) l l' := by
  refine ⟨_, loadVec_display w p l, ?_⟩
  rw [List.forall₂_map_right_iff, List.forall₂_same]
  exact fun v _ => printedValue_printed _ _

/-- C77 (exactness): values with no more decimals than are written read back unchanged. -/
theorem c77_exact (w p : Option Nat) (l : List ℚ) (h : ∀ v ∈ l, ∃ k : ℤ, v = k / 10 ^ (p.getD 8)) :
    loadVec (displayPacked w p l) = some l := by
  rw [loadVec_display]
  congr 1
  conv_rhs => rw [← List.map_id l]
  exact List.map_congr_left fun v hv => printed_same (printedValue_printed _ _) (h v hv)

/-- non-trivial instance: one half, minus two and a third, the last of which is rounded; the file is not empty -/
example : loadVec (displayPacked (some 3) (some 1) [1 / 2, -2]) = some [1 / 2, -2] ∧
    (∃ l', loadVec (displayPacked none none [1 / 3]) = some l' ∧ List.Forall₂ (Printed 8) [1 / 3] l') ∧
    loadVec "1.5\n x".toList = none := by
  refine ⟨c77_exact _ _ _ ?_, c77_reads_back none none _, ?_⟩
  · intro v hv
    simp only [List.mem_cons, List.not_mem_nil, or_false] at hv
    rcases hv with rfl | rfl
    · exact ⟨5, by norm_num⟩
    · exact ⟨-20, by norm_num⟩
  · decide +kernel

theorem filePos3_find {i j k : Nat} (h1 : k ≤ j) (h2 : j ≤ i) : filePos3 i j k = find3 i j k := by
  rw [find3_perm (List.reverse_perm [k, j, i]), find3_sorted h1 h2, filePos3, tri3_choose, tri2_choose]
  omega

theorem filePos4_find {i j k l : Nat} (h1 : l ≤ k) (h2 : k ≤ j) (h3 : j ≤ i) : filePos4 i j k l = find4 i j k l := by
  rw [find4_perm (List.reverse_perm [l, k, j, i]), find4_sorted h1 h2 h3, filePos4, tri4_choose, tri3_choose,
    tri2_choose]
  omega

/-- C77 (the order of packed tables is the order of the file format): a cubic table for `n` coordinates written to a
file is accepted by `load_fc3`, and the tensor has at every triple of indices, in any order, the printed value of the
table at that triple. -/
theorem c77_cubic_file (n : Nat) (w p : Option Nat) (f : F3qcm ℚ) (hf : f.length = n * (n + 1) * (n + 2) / 6) :
    ∃ t : T3 α, loadFc3Text (displayPacked w p f) n = some t ∧ ∀ a b c, a < n → b < n → c < n →
      ∃ v v', f.get a b c = some v ∧ Printed (p.getD 8) v v' ∧ t a b c = Arith.lit v' := by
  obtain ⟨t, ht, -, hv⟩ := c04_values (α := α) n ((f.map (printedValue (p.getD 8))).map Arith.lit)
    (by simpa using hf) (Arith.lit 0) (Arith.lit 0)
  refine ⟨t, ?_, fun a b c ha hb hc => ?_⟩
  · rw [loadFc3Text, loadVec_display]
    exact ht
  · obtain ⟨x, y, z, h1, h2, hp⟩ := exists_sorted3 a b c
    have hz : z ∈ [a, b, c] := hp.mem_iff.mpr (by simp)
    have hzn : z < n := by simp at hz; omega
    have hp3 : [a, b, c].Perm [z, y, x] := hp.trans (List.reverse_perm [z, y, x])
    have e := hv z y x h1 h2 hzn a b c hp3
    obtain ⟨v, hv1, -⟩ := c01_read n f hf a b c a b c ha hb hc (.refl _)
    refine ⟨v, _, hv1, printedValue_printed _ _, ?_⟩
    rw [filePos3_find h1 h2, ← find3_perm hp3, List.getElem?_map, List.getElem?_map] at e
    rw [F3qcm.get] at hv1
    rw [hv1] at e
    exact Option.some.inj e

/-- C77, the quartic analogue of `c77_cubic_file`. -/
theorem c77_quartic_file (n : Nat) (w p : Option Nat) (f : F4qcm ℚ)
    (hf : f.length = n * (n + 1) * (n + 2) * (n + 3) / 24) :
    ∃ t : T4 α, loadFc4Text (displayPacked w p f) n = some t ∧ ∀ a b c d, a < n → b < n → c < n → d < n →
      ∃ v v', f.get a b c d = some v ∧ Printed (p.getD 8) v v' ∧ t a b c d = Arith.lit v' := by
  obtain ⟨t, ht, -, hv⟩ := c05_values (α := α) n ((f.map (printedValue (p.getD 8))).map Arith.lit)
    (by simpa using hf) (Arith.lit 0) (Arith.lit 0)
  refine ⟨t, ?_, fun a b c d ha hb hc hd => ?_⟩
  · rw [loadFc4Text, loadVec_display]
    exact ht
  · obtain ⟨x, y, z, u, h1, h2, h3, hp⟩ := exists_sorted4 a b c d
    have hz : u ∈ [a, b, c, d] := hp.mem_iff.mpr (by simp)
    have hzn : u < n := by simp at hz; omega
    have hp3 : [a, b, c, d].Perm [u, z, y, x] := hp.trans (List.reverse_perm [u, z, y, x])
    have e := hv u z y x h1 h2 h3 hzn a b c d hp3
    have hlt : find4 a b c d < f.length := by
      rw [hf, c02_slots_dense]; exact ⟨a, b, c, d, ha, hb, hc, hd, rfl⟩
    have hv1 : f.get a b c d = some f[find4 a b c d] := by simp [F4qcm.get, hlt]
    refine ⟨_, _, hv1, printedValue_printed _ _, ?_⟩
    rw [filePos4_find h1 h2 h3, ← find4_perm hp3, List.getElem?_map, List.getElem?_map,
      List.getElem?_eq_getElem hlt] at e
    exact Option.some.inj e

/-- non-trivial instance: a table for two coordinates -/
example : ∃ t : T3 ℝ, loadFc3Text (displayPacked none none [1, 2, 3, 4]) 2 = some t ∧ t 0 1 0 = 2 ∧ t 1 0 1 = 3 := by
  obtain ⟨t, ht, hv⟩ := c77_cubic_file (α := ℝ) 2 none none [1, 2, 3, 4] (by simp)
  refine ⟨t, ht, ?_, ?_⟩
  · obtain ⟨v, v', h1, h2, h3⟩ := hv 0 1 0 (by norm_num) (by norm_num) (by norm_num)
    rw [F3qcm.get, ← filePos3_find (i := 1) (j := 0) (k := 0) (by norm_num) (by norm_num) |>.trans
      (find3_perm (by decide))] at h1
    have : v = 2 := by simpa [filePos3] using h1.symm
    subst this
    rw [h3, printed_same h2 ⟨2 * 10 ^ 8, by norm_num⟩]
    simp [Arith.lit]
  · obtain ⟨v, v', h1, h2, h3⟩ := hv 1 0 1 (by norm_num) (by norm_num) (by norm_num)
    rw [F3qcm.get, ← filePos3_find (i := 1) (j := 1) (k := 0) (by norm_num) (by norm_num) |>.trans
      (find3_perm (by decide))] at h1
    have : v = 3 := by simpa [filePos3] using h1.symm
    subst this
    rw [h3, printed_same h2 ⟨3 * 10 ^ 8, by norm_num⟩]
    simp [Arith.lit]

/-- C77 (the three files of a run): they are accepted exactly when each holds numbers only and as many as it should: the
square of the number of coordinates in the first, one per unordered triple and quadruple of coordinates in the others,
each alone or after a header of two numbers. -/
theorem c77_run_files (t2 t3 t4 : Text) (n : Nat) : (∃ fc, runFiles (α := α) t2 t3 t4 n = some fc) ↔
    ∃ l2 l3 l4, List.Forall₂ RealField (fieldsOf t2) l2 ∧ List.Forall₂ RealField (asciiFields t3) l3 ∧
      List.Forall₂ RealField (asciiFields t4) l4 ∧ (l2.length = n * n ∨ l2.length = n * n + 2) ∧
      (l3.length = n * (n + 1) * (n + 2) / 6 ∨ l3.length = n * (n + 1) * (n + 2) / 6 + 2) ∧
      (l4.length = n * (n + 1) * (n + 2) * (n + 3) / 24 ∨ l4.length = n * (n + 1) * (n + 2) * (n + 3) / 24 + 2) := by
  have h2 : ∀ l, loadVec2 t2 = some l ↔ List.Forall₂ RealField (fieldsOf t2) l := by
    intro l
    unfold loadVec2
    rw [splitWs_fields, mapM_forall₂]
    simp only [parseF64_iff]
  simp only [← h2, ← c77_reads]
  unfold runFiles loadFc2Text loadFc3Text loadFc4Text
  simp only [Option.bind_eq_bind, Option.bind_eq_some_iff, Option.pure_def, Option.some.injEq]
  constructor
  · rintro ⟨fc, a, ⟨l2, hl2, ha⟩, b, ⟨l3, hl3, hb⟩, c, ⟨l4, hl4, hc⟩, rfl⟩
    refine ⟨l2, l3, l4, hl2, hl3, hl4, ?_, ?_, ?_⟩
    · by_contra hn
      rw [not_or] at hn
      rw [c06_wrong_length n _ (by simpa using hn.1) (by simpa using hn.2)] at ha
      cases ha
    · by_contra hn
      rw [not_or] at hn
      rw [c04_wrong_length n _ (by simpa using hn.1) (by simpa using hn.2)] at hb
      cases hb
    · by_contra hn
      rw [not_or] at hn
      rw [c05_wrong_length n _ (by simpa using hn.1) (by simpa using hn.2)] at hc
      cases hc
  · rintro ⟨l2, l3, l4, hl2, hl3, hl4, n2, n3, n4⟩
    have a : ∃ a, loadFc2 n (l2.map (Arith.lit : ℚ → α)) = some a := by
      rcases n2 with n2 | n2
      · exact ⟨_, by rw [loadFc2, if_pos (by simpa using n2)]⟩
      · exact ⟨_, by rw [loadFc2, if_neg (by simp [n2]), if_neg (by simp [n2]), if_pos (by simp [n2])]⟩
    have b : ∃ b, newFc3 n (l3.map (Arith.lit : ℚ → α)) = some b := by
      rcases n3 with n3 | n3
      · obtain ⟨t, ht, -⟩ := c04_values n (l3.map (Arith.lit : ℚ → α)) (by simpa using n3) (Arith.lit 0) (Arith.lit 0)
        exact ⟨t, ht⟩
      · match l3, n3 with
        | [], n3 => simp at n3
        | [_], n3 => simp at n3
        | x :: y :: l, n3 =>
          obtain ⟨t, -, ht, -⟩ := c04_values n (l.map (Arith.lit : ℚ → α)) (by simpa using n3) (Arith.lit x) (Arith.lit y)
          exact ⟨t, ht⟩
    have c : ∃ c, newFc4 n (l4.map (Arith.lit : ℚ → α)) = some c := by
      rcases n4 with n4 | n4
      · obtain ⟨t, ht, -⟩ := c05_values n (l4.map (Arith.lit : ℚ → α)) (by simpa using n4) (Arith.lit 0) (Arith.lit 0)
        exact ⟨t, ht⟩
      · match l4, n4 with
        | [], n4 => simp at n4
        | [_], n4 => simp at n4
        | x :: y :: l, n4 =>
          obtain ⟨t, -, ht, -⟩ := c05_values n (l.map (Arith.lit : ℚ → α)) (by simpa using n4) (Arith.lit x) (Arith.lit y)
          exact ⟨t, ht⟩
    obtain ⟨a, ha⟩ := a
    obtain ⟨b, hb⟩ := b
    obtain ⟨c, hc⟩ := c
    exact ⟨_, a, ⟨l2, hl2, ha⟩, b, ⟨l3, hl3, hb⟩, c, ⟨l4, hl4, hc⟩, rfl⟩

/-- non-trivial instance: one coordinate -/
example : (∃ fc, runFiles (α := ℝ) "2.5".toList "1e-2".toList " -3\n".toList 1 = some fc) ∧
    ¬ ∃ fc, runFiles (α := ℝ) "2.5".toList "1e-2 7".toList " -3\n".toList 1 = some fc := by
  have e2 : loadVec2 "2.5".toList = some [5 / 2] := by decide +kernel
  have e3 : loadVec "1e-2".toList = some [1 / 100] := by decide +kernel
  have e3' : loadVec "1e-2 7".toList = some [1 / 100, 7] := by decide +kernel
  have e4 : loadVec " -3\n".toList = some [-3] := by decide +kernel
  have h2 : List.Forall₂ RealField (fieldsOf "2.5".toList) [5 / 2] := by
    rw [← splitWs_fields]
    unfold loadVec2 at e2
    rw [mapM_forall₂] at e2
    simpa only [parseF64_iff] using e2
  refine ⟨(c77_run_files _ _ _ _).2 ⟨_, _, _, h2, (c77_reads _ _).1 e3, (c77_reads _ _).1 e4, by simp, by simp, by simp⟩, ?_⟩
  intro h
  obtain ⟨l2, l3, l4, -, g3, -, -, n3, -⟩ := (c77_run_files _ _ _ _).1 h
  rw [← c77_reads, e3'] at g3
  obtain rfl := Option.some.inj g3
  simp at n3

/-! ## C78: the listing for Gaussian -/

/-- C78 (when it runs): the listing for `r` modes is printed exactly when both tables have a value for every choice of
modes; otherwise the code panics. -/
theorem c78_runs_iff_partial (r : Nat) (f3 : F3qcm α) (f4 : F4qcm α) : (∃ g, toGauss r f3 f4 = some g) ↔
    r * (r + 1) * (r + 2) / 6 ≤ f3.length ∧ r * (r + 1) * (r + 2) * (r + 3) / 24 ≤ f4.length := by
  rw [← gets3_iff, ← gets4_iff]
  unfold toGauss
  simp only [Option.bind_eq_bind, Option.bind_eq_some_iff, Option.pure_def, Option.some.injEq]
  constructor
  · rintro ⟨g, c, hc, q, hq, -⟩
    exact ⟨((gaussCubic_iff r f3 c).1 hc).1, ((gaussQuartic_iff r f4 q).1 hq).1⟩
  · rintro ⟨h1, h2⟩
    exact ⟨_, _, (gaussCubic_iff r f3 _).2 ⟨h1, rfl⟩, _, (gaussQuartic_iff r f4 _).2 ⟨h2, rfl⟩, rfl⟩

/-- C78 (cubic part): the rows are exactly the triples of modes in falling order, counted from one, whose constant is
larger than 1e-6 in absolute value, with that constant, each once and in rising order. -/
theorem c78_cubic_partial (r : Nat) (f3 : F3qcm α) (f4 : F4qcm α) (g : List (FcRow α) × List (FcRow α))
    (h : toGauss r f3 f4 = some g) :
    (∀ row, row ∈ g.1 ↔ ∃ i j k v, k ≤ j ∧ j ≤ i ∧ i < r ∧ f3.get i j k = some v ∧
      Arith.lt (Arith.lit (1 / 1000000)) (Arith.abs v) = true ∧ row = ⟨[i + 1, j + 1, k + 1], v⟩) ∧
    g.1.Pairwise FcRow.Before := by
  unfold toGauss at h
  simp only [Option.bind_eq_bind, Option.bind_eq_some_iff, Option.pure_def, Option.some.injEq] at h
  obtain ⟨c, hc, q, hq, rfl⟩ := h
  obtain ⟨-, rfl⟩ := (gaussCubic_iff r f3 c).1 hc
  rw [show (1 / 10 ^ 6 : ℚ) = 1 / 1000000 by norm_num]
  refine ⟨fun row => ?_, ?_⟩
  · rw [List.mem_filterMap]
    constructor
    · rintro ⟨⟨i, j, k⟩, hx, hrow⟩
      obtain ⟨v, hv, hrow⟩ := Option.bind_eq_some_iff.1 hrow
      split at hrow
      · rename_i hp
        obtain ⟨h1, h2, h3⟩ := mem_nest3.1 hx
        exact ⟨i, j, k, v, h1, h2, h3, hv, hp, (Option.some.inj hrow).symm⟩
      · cases hrow
    · rintro ⟨i, j, k, v, h1, h2, h3, hv, hp, rfl⟩
      exact ⟨(i, j, k), mem_nest3.2 ⟨h1, h2, h3⟩, by simp only [hv, Option.bind_some, hp, if_true]⟩
  · rw [List.pairwise_filterMap]
    refine (nest3_sorted r).imp fun {x y} hxy a ha b hb => ?_
    obtain ⟨v, hv, ha⟩ := Option.bind_eq_some_iff.1 ha
    obtain ⟨v', hv', hb⟩ := Option.bind_eq_some_iff.1 hb
    split at ha
    · split at hb
      · obtain rfl := Option.some.inj ha
        obtain rfl := Option.some.inj hb
        exact lex3 [] hxy
      · cases hb
    · cases ha

/-- C78 (quartic part), the analogue of `c78_cubic_partial`. -/
theorem c78_quartic_partial (r : Nat) (f3 : F3qcm α) (f4 : F4qcm α) (g : List (FcRow α) × List (FcRow α))
    (h : toGauss r f3 f4 = some g) :
    (∀ row, row ∈ g.2 ↔ ∃ i j k l v, l ≤ k ∧ k ≤ j ∧ j ≤ i ∧ i < r ∧ f4.get i j k l = some v ∧
      Arith.lt (Arith.lit (1 / 1000000)) (Arith.abs v) = true ∧ row = ⟨[i + 1, j + 1, k + 1, l + 1], v⟩) ∧
    g.2.Pairwise FcRow.Before := by
  unfold toGauss at h
  simp only [Option.bind_eq_bind, Option.bind_eq_some_iff, Option.pure_def, Option.some.injEq] at h
  obtain ⟨c, hc, q, hq, rfl⟩ := h
  obtain ⟨-, rfl⟩ := (gaussQuartic_iff r f4 q).1 hq
  rw [show (1 / 10 ^ 6 : ℚ) = 1 / 1000000 by norm_num]
  refine ⟨fun row => ?_, ?_⟩
  · rw [List.mem_filterMap]
    constructor
    · rintro ⟨⟨i, j, k, l⟩, hx, hrow⟩
      obtain ⟨v, hv, hrow⟩ := Option.bind_eq_some_iff.1 hrow
      split at hrow
      · rename_i hp
        obtain ⟨h1, h2, h3, h4⟩ := mem_nest4.1 hx
        exact ⟨i, j, k, l, v, h1, h2, h3, h4, hv, hp, (Option.some.inj hrow).symm⟩
      · cases hrow
    · rintro ⟨i, j, k, l, v, h1, h2, h3, h4, hv, hp, rfl⟩
      exact ⟨(i, j, k, l), mem_nest4.2 ⟨h1, h2, h3, h4⟩, by simp only [hv, Option.bind_some, hp, if_true]⟩
  · rw [List.pairwise_filterMap]
    refine (nest4_sorted r).imp fun {x y} hxy a ha b hb => ?_
    obtain ⟨v, hv, ha⟩ := Option.bind_eq_some_iff.1 ha
    obtain ⟨v', hv', hb⟩ := Option.bind_eq_some_iff.1 hb
    split at ha
    · split at hb
      · obtain rfl := Option.some.inj ha
        obtain rfl := Option.some.inj hb
        exact lex4 hxy
      · cases hb
    · cases ha

/-- C78 (text): with at most 9999 modes and constants between -99999 and 999999 every row can be read back from its
line: the mode numbers, and the constant to twelve decimals. -/
theorem c78_lines_partial (g : List (FcRow ℚ) × List (FcRow ℚ))
    (h : ∀ row, row ∈ g.1 ∨ row ∈ g.2 → (∀ n ∈ row.nums, n ≤ 9999) ∧ -99999 ≤ row.val ∧ row.val ≤ 999999) :
    ∃ c q, gaussLines g = ["CUBIC FORCE CONSTANTS IN NORMAL MODES".toList] ++ c ++
        ["QUARTIC FORCE CONSTANTS IN NORMAL MODES".toList] ++ q ∧
      List.Forall₂ (fun line row => ShowsRow line row.nums row.val) c g.1 ∧
      List.Forall₂ (fun line row => ShowsRow line row.nums row.val) q g.2 := by
  refine ⟨_, _, rfl, ?_, ?_⟩ <;> rw [List.forall₂_map_left_iff, List.forall₂_same] <;> intro row hr
  · obtain ⟨h1, h2, h3⟩ := h row (.inl hr)
    exact rowText_shows row h1 h2 h3
  · obtain ⟨h1, h2, h3⟩ := h row (.inr hr)
    exact rowText_shows row h1 h2 h3

/-- non-trivial instance: the lines of a listing with one constant in each part -/
example : ∃ c q, gaussLines ([⟨[2, 1, 1], -5 / 2⟩], [⟨[2, 2, 1, 1], 1 / 3⟩]) =
      ["CUBIC FORCE CONSTANTS IN NORMAL MODES".toList] ++ c ++ ["QUARTIC FORCE CONSTANTS IN NORMAL MODES".toList] ++ q ∧
    List.Forall₂ (fun line (row : FcRow ℚ) => ShowsRow line row.nums row.val) c [⟨[2, 1, 1], -5 / 2⟩] ∧
    List.Forall₂ (fun line (row : FcRow ℚ) => ShowsRow line row.nums row.val) q [⟨[2, 2, 1, 1], 1 / 3⟩] := by
  refine c78_lines_partial _ fun row hr => ?_
  simp only [List.mem_singleton] at hr
  rcases hr with rfl | rfl <;> refine ⟨by simp, ?_, ?_⟩ <;> norm_num

/-- non-trivial instance: one mode with a cubic constant and a quartic constant too small to be listed -/
example : ∃ g, toGauss 1 [(5 : ℝ)] [(0 : ℝ)] = some g ∧ ⟨[1, 1, 1], 5⟩ ∈ g.1 ∧ g.2 = [] := by
  obtain ⟨g, hg⟩ := (c78_runs_iff_partial 1 [(5 : ℝ)] [(0 : ℝ)]).2 (by simp)
  have f3 : find3 0 0 0 = 0 := by rw [find3_sorted le_rfl le_rfl]; decide
  have f4 : find4 0 0 0 0 = 0 := by rw [find4_sorted le_rfl le_rfl le_rfl]; decide
  refine ⟨g, hg, ((c78_cubic_partial _ _ _ g hg).1 _).2 ⟨0, 0, 0, 5, le_rfl, le_rfl, by norm_num, by simp [F3qcm.get, f3], ?_, rfl⟩,
    List.eq_nil_iff_forall_not_mem.2 fun row hr => ?_⟩
  · change decide (((1 / 1000000 : ℚ) : ℝ) < |5|) = true
    rw [decide_eq_true_iff, abs_of_pos (by norm_num)]
    norm_num
  · obtain ⟨i, j, k, l, v, h1, h2, h3, h4, hv, hp, -⟩ := ((c78_quartic_partial _ _ _ g hg).1 row).1 hr
    obtain rfl : i = 0 := by omega
    obtain rfl : j = 0 := by omega
    obtain rfl : k = 0 := by omega
    obtain rfl : l = 0 := by omega
    have : v = 0 := by simpa [F4qcm.get, f4] using hv.symm
    subst this
    change decide (((1 / 1000000 : ℚ) : ℝ) < |0|) = true at hp
    rw [decide_eq_true_iff, abs_zero] at hp
    norm_num at hp

/-- C78 (violation): the number of modes is taken from the length of the list of frequencies. `run` hands one frequency
per Cartesian coordinate to `finish`, which uses the first `nvib` of them; for a saved state with those frequencies and
the tables for `nvib` modes, the listing panics. -/
theorem c78_all_frequencies_violated (nvib : Nat) (freq : List α) (f3 : F3qcm α) (f4 : F4qcm α)
    (hf : nvib < freq.length) (h3 : f3.length = nvib * (nvib + 1) * (nvib + 2) / 6) :
    toGauss freq.length f3 f4 = none := by
  cases h : toGauss freq.length f3 f4 with
  | none => rfl
  | some g =>
    have := ((c78_runs_iff_partial freq.length f3 f4).1 ⟨g, h⟩).1
    rw [h3] at this
    have lt : tri3 nvib < tri3 freq.length := by
      refine lt_of_lt_of_le ?_ (tri3_mono (Nat.succ_le_of_lt hf))
      rw [Nat.succ_eq_add_one, tri3_succ, tri2_succ]
      omega
    exact absurd this (not_le.2 lt)

/-- non-trivial instance: water, with three modes and nine Cartesian coordinates -/
example (f4 : F4qcm ℝ) : toGauss (List.replicate 9 (0 : ℝ)).length (List.replicate 10 (1 : ℝ)) f4 = none :=
  c78_all_frequencies_violated 3 _ _ f4 (by simp) (by simp)

/-! ## C79: the dump of all force constants -/

/-- C79 (when it runs): the dump is printed exactly when the Hessian is square with more rows than there are modes and
both tables are long enough. -/
theorem c79_runs_iff (r r2 c2 a b : Nat) (fc2 lxm : Mat α) (f3 : F3qcm α) (f4 : F4qcm α) :
    (∃ d, dumpFcs r r2 c2 fc2 a b lxm f3 f4 = some d) ↔ r2 = c2 ∧ r < r2 ∧
      r * (r + 1) * (r + 2) / 6 ≤ f3.length ∧ r * (r + 1) * (r + 2) * (r + 3) / 24 ≤ f4.length := by
  rw [← gets3_iff, ← gets4_iff]
  unfold dumpFcs
  by_cases h1 : r2 = c2
  · by_cases h2 : r < r2
    · rw [if_neg (by simpa using h1), if_neg (by simpa using h2)]
      simp only [Option.bind_eq_bind, Option.bind_eq_some_iff, Option.pure_def, Option.some.injEq, h1, true_and]
      constructor
      · rintro ⟨d, c, hc, q, hq, -⟩
        exact ⟨h1 ▸ h2, ((mapM_rows _ _ _ _).1 hc).1, ((mapM_rows _ _ _ _).1 hq).1⟩
      · rintro ⟨-, g3, g4⟩
        exact ⟨_, _, (mapM_rows _ _ _ _).2 ⟨g3, rfl⟩, _, (mapM_rows _ _ _ _).2 ⟨g4, rfl⟩, rfl⟩
    · rw [if_neg (by simpa using h1), if_pos h2]
      simp [h2]
  · rw [if_pos h1]
    simp [h1]

/-- C79 (content): the dump lists the lower triangle of the Hessian, every normal coordinate, and every cubic and
quartic constant once, with indices counted from one and zeros after them, in rising order. -/
theorem c79_rows (r r2 c2 a b : Nat) (fc2 lxm : Mat α) (f3 : F3qcm α) (f4 : F4qcm α) (d : FcDump α)
    (h : dumpFcs r r2 c2 fc2 a b lxm f3 f4 = some d) :
    (∀ row, row ∈ d.hessian ↔ ∃ i j, j ≤ i ∧ i < r2 ∧ row = ⟨[i + 1, j + 1, 0, 0], fc2 i j⟩) ∧
    (∀ row, row ∈ d.normal ↔ ∃ i j, i < a ∧ j < b ∧ row = ⟨[i + 1, j + 1, 0, 0], lxm i j⟩) ∧
    (∀ row, row ∈ d.cubic ↔ ∃ i j k v, k ≤ j ∧ j ≤ i ∧ i < r ∧ f3.get i j k = some v ∧
      row = ⟨[i + 1, j + 1, k + 1, 0], v⟩) ∧
    (∀ row, row ∈ d.quartic ↔ ∃ i j k l v, l ≤ k ∧ k ≤ j ∧ j ≤ i ∧ i < r ∧ f4.get i j k l = some v ∧
      row = ⟨[i + 1, j + 1, k + 1, l + 1], v⟩) ∧
    d.hessian.Pairwise FcRow.Before ∧ d.normal.Pairwise FcRow.Before ∧ d.cubic.Pairwise FcRow.Before ∧
    d.quartic.Pairwise FcRow.Before := by
  unfold dumpFcs at h
  split at h
  · cases h
  split at h
  · cases h
  simp only [Option.bind_eq_bind, Option.bind_eq_some_iff, Option.pure_def, Option.some.injEq] at h
  obtain ⟨c, hc, q, hq, rfl⟩ := h
  obtain ⟨-, rfl⟩ := (mapM_rows _ _ _ _).1 hc
  obtain ⟨-, rfl⟩ := (mapM_rows _ _ _ _).1 hq
  refine ⟨fun row => ?_, fun row => ?_, fun row => ?_, fun row => ?_, ?_, ?_, ?_, ?_⟩
  · simp only [dumpHessian, List.mem_flatMap, List.mem_map, List.mem_range]
    constructor
    · rintro ⟨i, hi, j, hj, rfl⟩
      exact ⟨i, j, by omega, hi, rfl⟩
    · rintro ⟨i, j, hj, hi, rfl⟩
      exact ⟨i, hi, j, by omega, rfl⟩
  · simp only [dumpNormal, List.mem_flatMap, List.mem_map, List.mem_range]
    constructor
    · rintro ⟨i, hi, j, hj, rfl⟩
      exact ⟨i, j, hi, hj, rfl⟩
    · rintro ⟨i, j, hi, hj, rfl⟩
      exact ⟨i, hi, j, hj, rfl⟩
  · rw [List.mem_filterMap]
    constructor
    · rintro ⟨⟨i, j, k⟩, hx, hrow⟩
      obtain ⟨v, hv, rfl⟩ := Option.map_eq_some_iff.1 hrow
      obtain ⟨h1, h2, h3⟩ := mem_nest3.1 hx
      exact ⟨i, j, k, v, h1, h2, h3, hv, rfl⟩
    · rintro ⟨i, j, k, v, h1, h2, h3, hv, rfl⟩
      exact ⟨(i, j, k), mem_nest3.2 ⟨h1, h2, h3⟩, by simp [hv]⟩
  · rw [List.mem_filterMap]
    constructor
    · rintro ⟨⟨i, j, k, l⟩, hx, hrow⟩
      obtain ⟨v, hv, rfl⟩ := Option.map_eq_some_iff.1 hrow
      obtain ⟨h1, h2, h3, h4⟩ := mem_nest4.1 hx
      exact ⟨i, j, k, l, v, h1, h2, h3, h4, hv, rfl⟩
    · rintro ⟨i, j, k, l, v, h1, h2, h3, h4, hv, rfl⟩
      exact ⟨(i, j, k, l), mem_nest4.2 ⟨h1, h2, h3, h4⟩, by simp [hv]⟩
  · unfold dumpHessian
    rw [List.pairwise_flatMap]
    refine ⟨fun i _ => ?_, List.pairwise_lt_range.imp fun {a b} h x hx y hy => ?_⟩
    · rw [List.pairwise_map]
      exact List.pairwise_lt_range.imp fun h => .cons (.rel (by omega))
    · simp only [List.mem_map] at hx hy
      obtain ⟨_, _, rfl⟩ := hx
      obtain ⟨_, _, rfl⟩ := hy
      exact .rel (by omega)
  · unfold dumpNormal
    rw [List.pairwise_flatMap]
    refine ⟨fun i _ => ?_, List.pairwise_lt_range.imp fun {a b} h x hx y hy => ?_⟩
    · rw [List.pairwise_map]
      exact List.pairwise_lt_range.imp fun h => .cons (.rel (by omega))
    · simp only [List.mem_map] at hx hy
      obtain ⟨_, _, rfl⟩ := hx
      obtain ⟨_, _, rfl⟩ := hy
      exact .rel (by omega)
  · rw [List.pairwise_filterMap]
    refine (nest3_sorted r).imp fun {x y} hxy a ha b hb => ?_
    obtain ⟨v, hv, rfl⟩ := Option.map_eq_some_iff.1 ha
    obtain ⟨v', hv', rfl⟩ := Option.map_eq_some_iff.1 hb
    exact lex3 [0] hxy
  · rw [List.pairwise_filterMap]
    refine (nest4_sorted r).imp fun {x y} hxy a ha b hb => ?_
    obtain ⟨v, hv, rfl⟩ := Option.map_eq_some_iff.1 ha
    obtain ⟨v', hv', rfl⟩ := Option.map_eq_some_iff.1 hb
    exact lex4 hxy

/-- C79 (text): with indices up to 9999 and values between -99999 and 999999 every row can be read back from its line:
the indices, and the value to twelve decimals. -/
theorem c79_lines (d : FcDump ℚ)
    (h : ∀ row, row ∈ d.hessian ++ d.normal ++ d.cubic ++ d.quartic →
      (∀ n ∈ row.nums, n ≤ 9999) ∧ -99999 ≤ row.val ∧ row.val ≤ 999999) :
    ∃ hs ns cs qs, dumpLines d = ["Cartesian Hessian (mdyne/Å)".toList] ++ hs ++ [[], "Normal coordinates".toList] ++ ns ++
        [[], "Normal coordinate cubic force constants (mdyne/Å²)".toList] ++ cs ++
        [[], "Normal coordinate quartic force constants (mdyne/Å³)".toList] ++ qs ∧
      List.Forall₂ (fun line row => ShowsRow line row.nums row.val) hs d.hessian ∧
      List.Forall₂ (fun line row => ShowsRow line row.nums row.val) ns d.normal ∧
      List.Forall₂ (fun line row => ShowsRow line row.nums row.val) cs d.cubic ∧
      List.Forall₂ (fun line row => ShowsRow line row.nums row.val) qs d.quartic := by
  have shows : ∀ row ∈ d.hessian ++ d.normal ++ d.cubic ++ d.quartic, ShowsRow row.text row.nums row.val :=
    fun row hr => rowText_shows row (h row hr).1 (h row hr).2.1 (h row hr).2.2
  refine ⟨_, _, _, _, rfl, ?_, ?_, ?_, ?_⟩ <;> rw [List.forall₂_map_left_iff, List.forall₂_same] <;>
    exact fun row hr => shows row (by simp [hr])

/-- non-trivial instance: two Cartesian coordinates and one mode; the Hessian has three rows in the dump -/
example (fc2 lxm : Mat ℝ) : ∃ d, dumpFcs 1 2 2 fc2 2 2 lxm [5] [7] = some d ∧ ⟨[2, 1, 0, 0], fc2 1 0⟩ ∈ d.hessian ∧
    ⟨[2, 1, 0, 0], lxm 1 0⟩ ∈ d.normal ∧ ⟨[1, 1, 1, 0], 5⟩ ∈ d.cubic ∧ ⟨[1, 1, 1, 1], 7⟩ ∈ d.quartic := by
  obtain ⟨d, hd⟩ := (c79_runs_iff 1 2 2 2 2 fc2 lxm [5] [7]).2 (by simp)
  have f3 : find3 0 0 0 = 0 := by rw [find3_sorted le_rfl le_rfl]; decide
  have f4 : find4 0 0 0 0 = 0 := by rw [find4_sorted le_rfl le_rfl le_rfl]; decide
  obtain ⟨h1, h2, h3, h4, -⟩ := c79_rows _ _ _ _ _ _ _ _ _ d hd
  exact ⟨d, hd, (h1 _).2 ⟨1, 0, by norm_num, by norm_num, rfl⟩, (h2 _).2 ⟨1, 0, by norm_num, by norm_num, rfl⟩,
    (h3 _).2 ⟨0, 0, 0, 5, le_rfl, le_rfl, by norm_num, by simp [F3qcm.get, f3], rfl⟩,
    (h4 _).2 ⟨0, 0, 0, 0, 7, le_rfl, le_rfl, le_rfl, by norm_num, by simp [F4qcm.get, f4], rfl⟩⟩

/-- non-trivial instance: the lines of a dump with one row in each part -/
example : ∃ hs ns cs qs, dumpLines ⟨[⟨[1, 1, 0, 0], 1 / 3⟩], [⟨[1, 1, 0, 0], -1⟩], [⟨[2, 1, 1, 0], 2⟩],
      [⟨[2, 2, 1, 1], -4⟩]⟩ = ["Cartesian Hessian (mdyne/Å)".toList] ++ hs ++ [[], "Normal coordinates".toList] ++ ns ++
        [[], "Normal coordinate cubic force constants (mdyne/Å²)".toList] ++ cs ++
        [[], "Normal coordinate quartic force constants (mdyne/Å³)".toList] ++ qs ∧
    List.Forall₂ (fun line (row : FcRow ℚ) => ShowsRow line row.nums row.val) hs [⟨[1, 1, 0, 0], 1 / 3⟩] := by
  obtain ⟨hs, ns, cs, qs, h1, h2, -⟩ := c79_lines ⟨[⟨[1, 1, 0, 0], 1 / 3⟩], [⟨[1, 1, 0, 0], -1⟩], [⟨[2, 1, 1, 0], 2⟩],
    [⟨[2, 2, 1, 1], -4⟩]⟩ (fun row hr => by
      simp only [List.cons_append, List.nil_append, List.mem_cons, List.not_mem_nil, or_false] at hr
      rcases hr with rfl | rfl | rfl | rfl <;> refine ⟨by simp, ?_, ?_⟩ <;> norm_num)
  exact ⟨hs, ns, cs, qs, h1, h2⟩

end Verif
