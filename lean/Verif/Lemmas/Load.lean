import Verif.Model.Load
import Verif.Spec.Load
import Verif.Lemmas.Index
import Verif.Lemmas.Loop

/-! Auxiliary lemmas for loading force constants. -/

namespace Verif

variable {α : Type}

theorem tri2_choose (b : Nat) : Nat.choose (b + 1) 2 = tri2 b := by
  induction b with
  | zero => rfl
  | succ b ih => rw [Nat.choose_succ_succ, ih, tri2_succ, Nat.choose_one_right, Nat.add_comm]

theorem tri3_choose (c : Nat) : Nat.choose (c + 2) 3 = tri3 c := by
  induction c with
  | zero => rfl
  | succ c ih =>
    rw [show c + 1 + 2 = (c + 2) + 1 by omega, Nat.choose_succ_succ, ih, tri3_succ, tri2_choose,
      Nat.add_comm]

theorem tri4_choose (d : Nat) : Nat.choose (d + 3) 4 = tri4 d := by
  induction d with
  | zero => rfl
  | succ d ih =>
    rw [show d + 1 + 3 = (d + 3) + 1 by omega, Nat.choose_succ_succ, ih, tri4_succ, tri3_choose,
      Nat.add_comm]

theorem getElem?_flatMap_range {β : Type} (size : Nat → Nat) (F : Nat → List β) (off : Nat → Nat)
    (h0 : off 0 = 0) (hs : ∀ i, off (i + 1) = off i + size i) (hl : ∀ i, (F i).length = size i)
    (n : Nat) :
    ((List.range n).flatMap F).length = off n ∧
      ∀ i p, i < n → p < size i → ((List.range n).flatMap F)[p + off i]? = (F i)[p]? := by
  induction n with
  | zero => simp [h0]
  | succ n ih =>
    obtain ⟨ih1, ih2⟩ := ih
    rw [List.range_succ, List.flatMap_append, List.flatMap_singleton]
    refine ⟨by rw [List.length_append, ih1, hl, hs], ?_⟩
    intro i p hi hp
    rcases Nat.lt_or_ge i n with h | h
    · rw [List.getElem?_append_left, ih2 i p h hp]
      have hmono : ∀ m, i + 1 ≤ m → off (i + 1) ≤ off m := by
        intro m hm
        induction hm with
        | refl => exact le_rfl
        | step _ ih => exact le_trans ih (by rw [Nat.succ_eq_add_one, hs]; omega)
      have := hmono n h
      rw [hs] at this
      omega
    · have : i = n := by omega
      subst this
      rw [List.getElem?_append_right (by omega), ih1, Nat.add_sub_cancel]

/-- the inner two loops -/
def nest2' {β : Type} (m : Nat) (g : Nat → Nat → β) : List β :=
  (List.range m).flatMap fun j => (List.range (j + 1)).map fun k => g j k

theorem nest2'_spec {β : Type} (m : Nat) (g : Nat → Nat → β) :
    (nest2' m g).length = tri2 m ∧
      ∀ j k, k ≤ j → j < m → (nest2' m g)[k + tri2 j]? = some (g j k) := by
  obtain ⟨h1, h2⟩ := getElem?_flatMap_range (fun j => j + 1)
    (fun j => (List.range (j + 1)).map fun k => g j k) tri2 rfl tri2_succ (by simp) m
  refine ⟨h1, fun j k hk hj => ?_⟩
  unfold nest2'
  rw [h2 j k hj (by omega), List.getElem?_map, List.getElem?_range (by omega)]
  rfl

theorem nest3_spec (n : Nat) :
    (nest3 n).length = tri3 n ∧
      ∀ i j k, k ≤ j → j ≤ i → i < n → (nest3 n)[k + tri2 j + tri3 i]? = some (i, j, k) := by
  obtain ⟨h1, h2⟩ := getElem?_flatMap_range (fun i => tri2 (i + 1))
    (fun i => nest2' (i + 1) fun j k => (i, j, k)) tri3 rfl tri3_succ
    (fun i => (nest2'_spec _ _).1) n
  refine ⟨h1, fun i j k hk hj hi => ?_⟩
  have := h2 i (k + tri2 j) hi (by
    have := sorted2_lt hk
    exact lt_of_lt_of_le this (tri2_mono (by omega)))
  rw [(nest2'_spec _ _).2 j k hk (by omega)] at this
  exact this

/-- the inner three loops -/
def nest3' {β : Type} (m : Nat) (g : Nat → Nat → Nat → β) : List β :=
  (List.range m).flatMap fun j => nest2' (j + 1) (g j)

theorem nest3'_spec {β : Type} (m : Nat) (g : Nat → Nat → Nat → β) :
    (nest3' m g).length = tri3 m ∧
      ∀ j k l, l ≤ k → k ≤ j → j < m → (nest3' m g)[l + tri2 k + tri3 j]? = some (g j k l) := by
  obtain ⟨h1, h2⟩ := getElem?_flatMap_range (fun j => tri2 (j + 1))
    (fun j => nest2' (j + 1) (g j)) tri3 rfl tri3_succ (fun j => (nest2'_spec _ _).1) m
  refine ⟨h1, fun j k l hl hk hj => ?_⟩
  have := h2 j (l + tri2 k) hj (by
    have := sorted2_lt hl
    exact lt_of_lt_of_le this (tri2_mono (by omega)))
  rw [(nest2'_spec _ _).2 k l hl (by omega)] at this
  exact this

theorem nest4_spec (n : Nat) :
    (nest4 n).length = tri4 n ∧
      ∀ i j k l, l ≤ k → k ≤ j → j ≤ i → i < n →
        (nest4 n)[l + tri2 k + tri3 j + tri4 i]? = some (i, j, k, l) := by
  obtain ⟨h1, h2⟩ := getElem?_flatMap_range (fun i => tri3 (i + 1))
    (fun i => nest3' (i + 1) fun j k l => (i, j, k, l)) tri4 rfl tri4_succ
    (fun i => (nest3'_spec _ _).1) n
  refine ⟨h1, fun i j k l hl hk hj hi => ?_⟩
  have := h2 i (l + tri2 k + tri3 j) hi (by
    have := sorted3_lt hl hk
    exact lt_of_lt_of_le this (tri3_mono (by omega)))
  rw [(nest3'_spec _ _).2 j k l hl hk (by omega)] at this
  exact this

theorem mem_nest3 {n i j k : Nat} : (i, j, k) ∈ nest3 n ↔ k ≤ j ∧ j ≤ i ∧ i < n := by
  simp [nest3, List.mem_flatMap]; omega

theorem mem_nest4 {n i j k l : Nat} : (i, j, k, l) ∈ nest4 n ↔ l ≤ k ∧ k ≤ j ∧ j ≤ i ∧ i < n := by
  simp [nest4, List.mem_flatMap]; omega

/-- A loop reading consecutive values with a counter is a fold over the zipped values. -/
theorem foldlM_counter {X S : Type} (f : List α) (step : S → X → α → S)
    (body : S × Nat → X → Option (S × Nat))
    (hb : ∀ s x, body s x = f[s.2]?.bind fun v => some (step s.1 x v, s.2 + 1))
    (L : List X) (t : S) (c : Nat) (h : c + L.length ≤ f.length) :
    L.foldlM body (t, c) =
      some ((L.zip (f.drop c)).foldl (fun t p => step t p.1 p.2) t, c + L.length) := by
  induction L generalizing t c with
  | nil => simp
  | cons x L ih =>
    simp only [List.length_cons] at h
    have hc : c < f.length := by omega
    rw [List.foldlM_cons, hb]
    simp only [List.getElem?_eq_getElem hc, Option.bind_some, Option.bind_eq_bind]
    rw [ih _ _ (by omega)]
    have hd : f.drop c = f[c] :: f.drop (c + 1) := List.drop_eq_getElem_cons hc
    rw [hd, List.zip_cons_cons, List.foldl_cons, List.length_cons]
    simp [Nat.add_comm, Nat.add_left_comm]

theorem perm3_iff {a b c i j k : Nat} : [a, b, c].Perm [i, j, k] ↔
    (a = i ∧ b = j ∧ c = k) ∨ (a = i ∧ b = k ∧ c = j) ∨ (a = j ∧ b = i ∧ c = k) ∨
    (a = j ∧ b = k ∧ c = i) ∨ (a = k ∧ b = i ∧ c = j) ∨ (a = k ∧ b = j ∧ c = i) := by
  rw [← List.mem_permutations']
  simp only [List.permutations', List.permutations'Aux, List.flatMap_cons, List.flatMap_nil, List.map_cons,
    List.map_nil, List.append_nil, List.cons_append, List.nil_append, List.mem_cons, List.cons.injEq,
    and_true, List.not_mem_nil, or_false]
  tauto

theorem perm4_iff {a b c d i j k l : Nat} : [a, b, c, d].Perm [i, j, k, l] ↔
    (a = i ∧ b = j ∧ c = k ∧ d = l) ∨ (a = i ∧ b = j ∧ c = l ∧ d = k) ∨
    (a = i ∧ b = k ∧ c = j ∧ d = l) ∨ (a = i ∧ b = k ∧ c = l ∧ d = j) ∨
    (a = i ∧ b = l ∧ c = j ∧ d = k) ∨ (a = i ∧ b = l ∧ c = k ∧ d = j) ∨
    (a = j ∧ b = i ∧ c = k ∧ d = l) ∨ (a = j ∧ b = i ∧ c = l ∧ d = k) ∨
    (a = j ∧ b = k ∧ c = i ∧ d = l) ∨ (a = j ∧ b = k ∧ c = l ∧ d = i) ∨
    (a = j ∧ b = l ∧ c = i ∧ d = k) ∨ (a = j ∧ b = l ∧ c = k ∧ d = i) ∨
    (a = k ∧ b = i ∧ c = j ∧ d = l) ∨ (a = k ∧ b = i ∧ c = l ∧ d = j) ∨
    (a = k ∧ b = j ∧ c = i ∧ d = l) ∨ (a = k ∧ b = j ∧ c = l ∧ d = i) ∨
    (a = k ∧ b = l ∧ c = i ∧ d = j) ∨ (a = k ∧ b = l ∧ c = j ∧ d = i) ∨
    (a = l ∧ b = i ∧ c = j ∧ d = k) ∨ (a = l ∧ b = i ∧ c = k ∧ d = j) ∨
    (a = l ∧ b = j ∧ c = i ∧ d = k) ∨ (a = l ∧ b = j ∧ c = k ∧ d = i) ∨
    (a = l ∧ b = k ∧ c = i ∧ d = j) ∨ (a = l ∧ b = k ∧ c = j ∧ d = i) := by
  rw [← List.mem_permutations']
  simp only [List.permutations', List.permutations'Aux, List.flatMap_cons, List.flatMap_nil, List.map_cons,
    List.map_nil, List.append_nil, List.cons_append, List.nil_append, List.mem_cons, List.cons.injEq,
    and_true, List.not_mem_nil, or_false]
  constructor <;>
    rintro (h | h | h | h | h | h | h | h | h | h | h | h | h | h | h | h | h | h | h | h | h | h | h | h) <;>
    simp [h]

variable [Arith α]

omit [Arith α] in
theorem setPerms3_apply (t : T3 α) (i j k : Nat) (v : α) (a b c : Nat) :
    setPerms3 t i j k v a b c = if [a, b, c].Perm [i, j, k] then v else t a b c := by
  by_cases h : [a, b, c].Perm [i, j, k]
  · rw [if_pos h]
    rw [perm3_iff] at h
    unfold setPerms3 T3.set
    rcases h with h | h | h | h | h | h <;> simp [h]
  · rw [if_neg h]
    rw [perm3_iff] at h
    simp only [not_or] at h
    obtain ⟨h1, h2, h3, h4, h5, h6⟩ := h
    simp only [setPerms3, T3.set, if_neg h1, if_neg h2, if_neg h3, if_neg h4, if_neg h5, if_neg h6]

/-- the loop of `new_fc3` on the right number of values -/
theorem fc3_loop (n : Nat) (vals : List α) (hl : vals.length = n * (n + 1) * (n + 2) / 6) :
    ∃ t : T3 α, ((nest3 n).foldlM (fc3Step vals) (fun _ _ _ => Arith.lit 0, 0)) =
        some (t, vals.length) ∧
      ∀ i j k, k ≤ j → j ≤ i → i < n → ∀ a b c, [a, b, c].Perm [i, j, k] →
        some (t a b c) = vals[filePos3 i j k]? := by
  have hlen : (nest3 n).length = vals.length := by rw [(nest3_spec n).1, hl]; rfl
  have hloop := foldlM_counter vals
    (fun (t : T3 α) (ix : Nat × Nat × Nat) v => setPerms3 t ix.1 ix.2.1 ix.2.2 v)
    (fc3Step vals) (by intro s x; rfl) (nest3 n) (fun _ _ _ => Arith.lit 0) 0
    (by rw [hlen]; omega)
  rw [List.drop_zero, Nat.zero_add, hlen] at hloop
  refine ⟨_, hloop, ?_⟩
  intro i j k hk hj hi a b c hp
  have hpos : filePos3 i j k = k + tri2 j + tri3 i := by
    unfold filePos3; rw [tri3_choose, tri2_choose]; omega
  have hin : filePos3 i j k < vals.length := by
    rw [hpos, hl]
    exact lt_of_lt_of_le (sorted3_lt hk hj) (tri3_mono (by omega))
  rw [List.getElem?_eq_getElem hin]
  congr 1
  apply foldl_write_eq (fun t : T3 α => t a b c)
    (fun p : (Nat × Nat × Nat) × α => [a, b, c].Perm [p.1.1, p.1.2.1, p.1.2.2]) (fun p => p.2)
  · intro t p; exact setPerms3_apply _ _ _ _ _ _ _ _
  · rintro ⟨⟨i', j', k'⟩, v⟩ hm hp'
    obtain ⟨q, hq⟩ := List.getElem?_of_mem hm
    rw [List.getElem?_zip_eq_some] at hq
    obtain ⟨hq1, hq2⟩ := hq
    have hmem := List.mem_of_getElem? hq1
    rw [mem_nest3] at hmem
    have hpp : [i', j', k'].Perm [i, j, k] := hp'.symm.trans hp
    have e1 : [k', j', i'].Pairwise (· ≤ ·) := by simp; omega
    have e2 : [k, j, i].Pairwise (· ≤ ·) := by simp; omega
    have e3 : [k', j', i'].Perm [k, j, i] :=
      (List.reverse_perm [i', j', k']).trans (hpp.trans (List.reverse_perm [i, j, k]).symm)
    have e4 := List.Perm.eq_of_pairwise (fun _ _ _ _ h1 h2 => le_antisymm h1 h2) e1 e2 e3
    simp at e4
    obtain ⟨rfl, rfl, rfl⟩ := e4
    have hq3 := (nest3_spec n).2 i' j' k' hk hj hi
    have hnd : q = k' + tri2 j' + tri3 i' := by
      have hqlt : q < tri3 n := by
        have := (List.getElem?_eq_some_iff.mp hq1).1
        rwa [(nest3_spec n).1] at this
      obtain ⟨x, y, z, hx1, hx2, hx3, hx4⟩ := exists_sorted3_of_lt hqlt
      have := (nest3_spec n).2 z y x hx1 hx2 hx3
      rw [hx4, hq1] at this
      simp at this
      obtain ⟨rfl, rfl, rfl⟩ := this
      omega
    subst hnd
    simp only [hpos]
    rw [List.getElem?_eq_some_iff] at hq2
    exact hq2.2.symm
  · refine ⟨((i, j, k), vals[filePos3 i j k]), ?_, hp⟩
    rw [List.mem_iff_getElem?]
    refine ⟨filePos3 i j k, ?_⟩
    rw [List.getElem?_zip_eq_some]
    refine ⟨?_, List.getElem?_eq_getElem hin⟩
    simp only [hpos]
    exact (nest3_spec n).2 i j k hk hj hi

omit [Arith α] in
theorem setPerms4_apply (t : T4 α) (i j k l : Nat) (v : α) (a b c d : Nat) :
    setPerms4 t i j k l v a b c d =
      if [a, b, c, d].Perm [i, j, k, l] then v else t a b c d := by
  by_cases h : [a, b, c, d].Perm [i, j, k, l]
  · rw [if_pos h]
    rw [perm4_iff] at h
    unfold setPerms4 T4.set
    rcases h with h | h | h | h | h | h | h | h | h | h | h | h | h | h | h | h | h | h | h | h | h |
      h | h | h <;> simp [h]
  · rw [if_neg h]
    rw [perm4_iff] at h
    simp only [not_or] at h
    obtain ⟨h1, h2, h3, h4, h5, h6, h7, h8, h9, h10, h11, h12, h13, h14, h15, h16, h17, h18, h19,
      h20, h21, h22, h23, h24⟩ := h
    simp only [setPerms4, T4.set, if_neg h1, if_neg h2, if_neg h3, if_neg h4, if_neg h5, if_neg h6,
      if_neg h7, if_neg h8, if_neg h9, if_neg h10, if_neg h11, if_neg h12, if_neg h13, if_neg h14,
      if_neg h15, if_neg h16, if_neg h17, if_neg h18, if_neg h19, if_neg h20, if_neg h21,
      if_neg h22, if_neg h23, if_neg h24]

/-- the loop of `new_fc4` on the right number of values -/
theorem fc4_loop (n : Nat) (vals : List α)
    (hl : vals.length = n * (n + 1) * (n + 2) * (n + 3) / 24) :
    ∃ t : T4 α, ((nest4 n).foldlM (fc4Step vals) (fun _ _ _ _ => Arith.lit 0, 0)) =
        some (t, vals.length) ∧
      ∀ i j k l, l ≤ k → k ≤ j → j ≤ i → i < n → ∀ a b c d, [a, b, c, d].Perm [i, j, k, l] →
        some (t a b c d) = vals[filePos4 i j k l]? := by
  have hlen : (nest4 n).length = vals.length := by rw [(nest4_spec n).1, hl]; rfl
  have hloop := foldlM_counter vals
    (fun (t : T4 α) (ix : Nat × Nat × Nat × Nat) v =>
      setPerms4 t ix.1 ix.2.1 ix.2.2.1 ix.2.2.2 v)
    (fc4Step vals) (by intro s x; rfl) (nest4 n) (fun _ _ _ _ => Arith.lit 0) 0
    (by rw [hlen]; omega)
  rw [List.drop_zero, Nat.zero_add, hlen] at hloop
  refine ⟨_, hloop, ?_⟩
  intro i j k l hl' hk hj hi a b c d hp
  have hpos : filePos4 i j k l = l + tri2 k + tri3 j + tri4 i := by
    unfold filePos4; rw [tri4_choose, tri3_choose, tri2_choose]; omega
  have hin : filePos4 i j k l < vals.length := by
    rw [hpos, hl]
    exact lt_of_lt_of_le (sorted4_lt hl' hk hj) (tri4_mono (by omega))
  rw [List.getElem?_eq_getElem hin]
  congr 1
  apply foldl_write_eq (fun t : T4 α => t a b c d)
    (fun p : (Nat × Nat × Nat × Nat) × α =>
      [a, b, c, d].Perm [p.1.1, p.1.2.1, p.1.2.2.1, p.1.2.2.2]) (fun p => p.2)
  · intro t p; exact setPerms4_apply _ _ _ _ _ _ _ _ _ _
  · rintro ⟨⟨i', j', k', l'⟩, v⟩ hm hp'
    obtain ⟨q, hq⟩ := List.getElem?_of_mem hm
    rw [List.getElem?_zip_eq_some] at hq
    obtain ⟨hq1, hq2⟩ := hq
    have hmem := List.mem_of_getElem? hq1
    rw [mem_nest4] at hmem
    have hpp : [i', j', k', l'].Perm [i, j, k, l] := hp'.symm.trans hp
    have e1 : [l', k', j', i'].Pairwise (· ≤ ·) := by simp; omega
    have e2 : [l, k, j, i].Pairwise (· ≤ ·) := by simp; omega
    have e3 : [l', k', j', i'].Perm [l, k, j, i] :=
      (List.reverse_perm [i', j', k', l']).trans
        (hpp.trans (List.reverse_perm [i, j, k, l]).symm)
    have e4 := List.Perm.eq_of_pairwise (fun _ _ _ _ h1 h2 => le_antisymm h1 h2) e1 e2 e3
    simp at e4
    obtain ⟨rfl, rfl, rfl, rfl⟩ := e4
    have hnd : q = l' + tri2 k' + tri3 j' + tri4 i' := by
      have hqlt : q < tri4 n := by
        have := (List.getElem?_eq_some_iff.mp hq1).1
        rwa [(nest4_spec n).1] at this
      obtain ⟨x, y, z, w, hx1, hx2, hx3, hx4, hx5⟩ := exists_sorted4_of_lt hqlt
      have := (nest4_spec n).2 w z y x hx1 hx2 hx3 hx4
      rw [hx5, hq1] at this
      simp at this
      obtain ⟨rfl, rfl, rfl, rfl⟩ := this
      omega
    subst hnd
    simp only [hpos]
    rw [List.getElem?_eq_some_iff] at hq2
    exact hq2.2.symm
  · refine ⟨((i, j, k, l), vals[filePos4 i j k l]), ?_, hp⟩
    rw [List.mem_iff_getElem?]
    refine ⟨filePos4 i j k l, ?_⟩
    rw [List.getElem?_zip_eq_some]
    refine ⟨?_, List.getElem?_eq_getElem hin⟩
    simp only [hpos]
    exact (nest4_spec n).2 i j k l hl' hk hj hi

end Verif
