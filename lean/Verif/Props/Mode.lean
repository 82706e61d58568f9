import Verif.Lemmas.Mode
import Mathlib.Data.Finset.Sort
import Mathlib.Tactic.Linarith
import Mathlib.Tactic.NormNum
import Mathlib.Tactic.FinCases

/-! # C17, C18: classification, counting and partitioning of modes -/

namespace Verif

variable {α : Type} [Arith α]

/-! ## C17 -/

/-- C17: every vibrational index is mentioned by some mode, and modes mention nothing else. For any
arithmetic. -/
theorem c17_covers (rotor : Rotor) (nvib : Nat) (freq : Vec α) (i : Nat) :
    (∃ m ∈ degModes rotor nvib freq, i ∈ m.members) ↔ i < nvib := by
  by_cases hs : rotor.isSymTop = true
  · constructor
    · rintro ⟨m, hm, hi⟩
      rcases (mem_degModes_sym hs).1 hm with ⟨p, hp, rfl⟩ | ⟨p, hp, rfl⟩ | ⟨j, hj, -, -, rfl⟩
      · have := degTriples_lt hp
        simp only [Mode.members, List.mem_cons, List.not_mem_nil, or_false] at hi
        omega
      · have := degDoubles_lt hp
        simp only [Mode.members, List.mem_cons, List.not_mem_nil, or_false] at hi
        omega
      · simp only [Mode.members, List.mem_singleton] at hi
        omega
    · intro hi
      cases h1 : inTriples (degTriples nvib freq) i with
      | true =>
        obtain ⟨p, hp, hx⟩ := inTriples_iff.1 h1
        exact ⟨_, (mem_degModes_sym hs).2 (.inl ⟨p, hp, rfl⟩), hx⟩
      | false =>
        cases h2 : inDoubles (degDoubles nvib freq) i with
        | true =>
          obtain ⟨p, hp, hx⟩ := inDoubles_iff.1 h2
          exact ⟨_, (mem_degModes_sym hs).2 (.inr (.inl ⟨p, hp, rfl⟩)), hx⟩
        | false =>
          exact ⟨.i1 i, (mem_degModes_sym hs).2 (.inr (.inr ⟨i, hi, h1, h2, rfl⟩)), by
            simp [Mode.members]⟩
  · have hs' : rotor.isSymTop = false := by simpa using hs
    simp only [degModes, hs', Bool.false_eq_true, if_false, List.mem_map, List.mem_range]
    constructor
    · rintro ⟨m, ⟨j, hj, rfl⟩, hi⟩
      simp only [Mode.members, List.mem_singleton] at hi
      omega
    · intro hi
      exact ⟨.i1 i, ⟨i, hi, rfl⟩, by simp [Mode.members]⟩

/-- C17: an asymmetric top's modes are the single indices in increasing order. -/
theorem c17_asymmetric (nvib : Nat) (freq : Vec α) :
    degModes .asymmTop nvib freq = (List.range nvib).map Mode.i1 := rfl

/-- C17: an index never sits in two modes of different degeneracy. -/
theorem c17_kinds_disjoint (rotor : Rotor) (nvib : Nat) (freq : Vec α) (m m' : Mode) (i : Nat)
    (hm : m ∈ degModes rotor nvib freq) (hm' : m' ∈ degModes rotor nvib freq)
    (hi : i ∈ m.members) (hi' : i ∈ m'.members) : m.degree = m'.degree := by
  by_cases hs : rotor.isSymTop = true
  · have key : ∀ m ∈ degModes rotor nvib freq, i ∈ m.members →
        m.degree = if inTriples (degTriples nvib freq) i = true then 3 else
          if inDoubles (degDoubles nvib freq) i = true then 2 else 1 := by
      intro m hm hi
      rcases (mem_degModes_sym hs).1 hm with ⟨p, hp, rfl⟩ | ⟨p, hp, rfl⟩ | ⟨j, -, h1, h2, rfl⟩
      · rw [if_pos (inTriples_iff.2 ⟨p, hp, hi⟩)]
        rfl
      · have h1 : inTriples (degTriples nvib freq) i = false := by
          have := degDoubles_not_triple hp
          simp only [Mode.members, List.mem_cons, List.not_mem_nil, or_false] at hi
          rcases hi with rfl | rfl
          · exact this.1
          · exact this.2
        rw [h1, if_neg (by simp), if_pos (inDoubles_iff.2 ⟨p, hp, hi⟩)]
        rfl
      · simp only [Mode.members, List.mem_singleton] at hi
        subst hi
        rw [h1, h2]
        rfl
    rw [key m hm hi, key m' hm' hi']
  · have hs' : rotor.isSymTop = false := by simpa using hs
    simp only [degModes, hs', Bool.false_eq_true, if_false, List.mem_map, List.mem_range] at hm hm'
    obtain ⟨j, -, rfl⟩ := hm
    obtain ⟨j', -, rfl⟩ := hm'
    rfl

/-- C17: what the kinds mean for a symmetric top (real arithmetic). Members of a degenerate mode are within
0.1 of its first member and none is negligible; a non-degenerate index that is not negligible is further
than 0.1 from every other non-negligible frequency, except those already taken by a triple. -/
theorem c17_kinds_sound (rotor : Rotor) (h : rotor.isSymTop = true) (nvib : Nat) (freq : Vec ℝ) :
    (∀ i j, Mode.i2 i j ∈ degModes rotor nvib freq →
      i < j ∧ |freq i - freq j| < 0.1 ∧ 0.1 < |freq i| ∧ 0.1 < |freq j|) ∧
    (∀ i j k, Mode.i3 i j k ∈ degModes rotor nvib freq ↔
      (i < j ∧ j < k ∧ k < nvib) ∧ |freq i - freq j| < 0.1 ∧ |freq i - freq k| < 0.1 ∧
        0.1 < |freq i| ∧ 0.1 < |freq j| ∧ 0.1 < |freq k|) ∧
    (∀ i j, Mode.i1 i ∈ degModes rotor nvib freq → j < nvib → j ≠ i → 0.1 < |freq i| → 0.1 < |freq j| →
      |freq i - freq j| < 0.1 → ∃ m ∈ degModes rotor nvib freq, m.degree = 3 ∧ j ∈ m.members) := by
  refine ⟨?_, ?_, ?_⟩
  · intro i j hm
    rcases (mem_degModes_sym h).1 hm with ⟨p, hp, e⟩ | ⟨⟨a, b⟩, hp, e⟩ | ⟨_, _, _, _, e⟩
    · exact absurd e (by simp)
    · simp only [Mode.i2.injEq] at e
      obtain ⟨rfl, rfl⟩ := e
      obtain ⟨l, c, n1, n2, -⟩ := degDoubles_iff.1 hp
      exact ⟨l.1, c, n1, n2⟩
    · exact absurd e (by simp)
  · intro i j k
    rw [← degTriples_iff, mem_degModes_sym h]
    constructor
    · rintro (⟨⟨a, b, c⟩, hp, e⟩ | ⟨p, hp, e⟩ | ⟨_, _, _, _, e⟩)
      · simp only [Mode.i3.injEq] at e
        obtain ⟨rfl, rfl, rfl⟩ := e
        exact hp
      · exact absurd e (by simp)
      · exact absurd e (by simp)
    · intro hp
      exact .inl ⟨_, hp, rfl⟩
  · intro i j hm hj hne ni nj hc
    rcases (mem_degModes_sym h).1 hm with ⟨p, hp, e⟩ | ⟨p, hp, e⟩ | ⟨a, ha, t, d, e⟩
    · exact absurd e (by simp)
    · exact absurd e (by simp)
    · simp only [Mode.i1.injEq] at e
      subst e
      cases htj : inTriples (degTriples nvib freq) j with
      | true =>
        obtain ⟨p, hp, hx⟩ := inTriples_iff.1 htj
        exact ⟨_, (mem_degModes_sym h).2 (.inl ⟨p, hp, rfl⟩), rfl, hx⟩
      | false =>
        exfalso
        have : inDoubles (degDoubles nvib freq) i = true := by
          rcases Nat.lt_or_gt_of_ne hne with hlt | hlt
          · exact inDoubles_iff.2 ⟨(j, i), degDoubles_iff.2
              ⟨⟨hlt, ha⟩, by rwa [abs_sub_comm], nj, ni, htj, t⟩, by simp⟩
          · exact inDoubles_iff.2 ⟨(i, j), degDoubles_iff.2
              ⟨⟨hlt, hj⟩, hc, ni, nj, t, htj⟩, by simp⟩
        rw [d] at this
        exact absurd this (by simp)

/-- C17, the part about "exactly once" that holds: if near-degeneracy is transitive among the
non-negligible frequencies and no cluster has more than three members, every index occurs exactly once in
the mode list (real arithmetic). Missing: this does not hold for chains and larger clusters, see
`c17_exactly_once_violated_chain` and `c17_exactly_once_violated_four`. -/
theorem c17_exactly_once_partial (rotor : Rotor) (nvib : Nat) (freq : Vec ℝ)
    (htrans : ∀ i j k, i < nvib → j < nvib → k < nvib → 0.1 < |freq i| → 0.1 < |freq j| →
      0.1 < |freq k| → |freq i - freq j| < 0.1 → |freq j - freq k| < 0.1 → |freq i - freq k| < 0.1)
    (hthree : ∀ s : Finset Nat, (∀ a ∈ s, a < nvib ∧ 0.1 < |freq a|) →
      (∀ a ∈ s, ∀ b ∈ s, |freq a - freq b| < 0.1) → s.card ≤ 3) :
    ((degModes rotor nvib freq).flatMap Mode.members).Nodup ∧
      ∀ i, i ∈ (degModes rotor nvib freq).flatMap Mode.members ↔ i < nvib := by
  refine ⟨?_, fun i => by rw [List.mem_flatMap]; exact c17_covers rotor nvib freq i⟩
  have hsymm : ∀ i j, |freq i - freq j| < 0.1 → |freq j - freq i| < 0.1 := by
    intro i j h; rwa [abs_sub_comm]
  rw [List.nodup_flatMap]
  by_cases hs : rotor.isSymTop = true
  swap
  · have hs' : rotor.isSymTop = false := by simpa using hs
    constructor
    · intro m hm
      simp only [degModes, hs', Bool.false_eq_true, if_false, List.mem_map, List.mem_range] at hm
      obtain ⟨j, -, rfl⟩ := hm
      simp [Mode.members]
    · refine (List.Pairwise.and_mem.1 (degModes_nodup rotor nvib freq)).imp ?_
      rintro m m' ⟨hm, hm', hne⟩
      simp only [degModes, hs', Bool.false_eq_true, if_false, List.mem_map, List.mem_range] at hm hm'
      obtain ⟨j, -, rfl⟩ := hm
      obtain ⟨j', -, rfl⟩ := hm'
      simp [Function.onFun, Mode.members]
      rintro rfl; exact hne rfl
  constructor
  · intro m hm
    rcases (mem_degModes_sym hs).1 hm with ⟨p, hp, rfl⟩ | ⟨p, hp, rfl⟩ | ⟨j, hj, -, -, rfl⟩
    · have := degTriples_lt hp
      simp [Mode.members]; omega
    · have := degDoubles_lt hp
      simp [Mode.members]; omega
    · simp [Mode.members]
  · refine (List.Pairwise.and_mem.1 (degModes_nodup rotor nvib freq)).imp ?_
    rintro m m' ⟨hm, hm', hne⟩
    simp only [Function.onFun, List.disjoint_left]
    intro x hx hx'
    have hdeg := c17_kinds_disjoint rotor nvib freq m m' x hm hm' hx hx'
    rcases (mem_degModes_sym hs).1 hm with ⟨⟨a, b, c⟩, hp, rfl⟩ | ⟨⟨a, b⟩, hp, rfl⟩ | ⟨j, hj, -, -, rfl⟩
    · rcases (mem_degModes_sym hs).1 hm' with ⟨⟨a', b', c'⟩, hq, rfl⟩ | ⟨q, hq, rfl⟩ | ⟨j', -, -, -, rfl⟩
      · -- two triples sharing an index: the union is a cluster
        obtain ⟨l1, c1, c2, n1, n2, n3⟩ := degTriples_iff.1 hp
        obtain ⟨l1', c1', c2', n1', n2', n3'⟩ := degTriples_iff.1 hq
        simp only [Mode.members, List.mem_cons, List.not_mem_nil, or_false] at hx hx'
        set s : Finset Nat := {a, b, c} ∪ {a', b', c'} with hsdef
        have hxs : x < nvib ∧ 0.1 < |freq x| := by
          rcases hx with rfl | rfl | rfl
          · exact ⟨by omega, n1⟩
          · exact ⟨by omega, n2⟩
          · exact ⟨by omega, n3⟩
        have hax : ∀ y ∈ s, y < nvib ∧ 0.1 < |freq y| := by
          intro y hy
          simp only [hsdef, Finset.mem_union, Finset.mem_insert, Finset.mem_singleton] at hy
          rcases hy with (rfl | rfl | rfl) | (rfl | rfl | rfl)
          · exact ⟨by omega, n1⟩
          · exact ⟨by omega, n2⟩
          · exact ⟨by omega, n3⟩
          · exact ⟨by omega, n1'⟩
          · exact ⟨by omega, n2'⟩
          · exact ⟨by omega, n3'⟩
        have self : ∀ y : Nat, |freq y - freq y| < 0.1 := by intro y; norm_num
        -- everything is close to x
        have tr : ∀ u v w : Nat, u < nvib ∧ 0.1 < |freq u| → v < nvib ∧ 0.1 < |freq v| →
            w < nvib ∧ 0.1 < |freq w| → |freq u - freq v| < 0.1 → |freq v - freq w| < 0.1 →
            |freq u - freq w| < 0.1 := fun u v w hu hv hw =>
          htrans u v w hu.1 hv.1 hw.1 hu.2 hv.2 hw.2
        have ha := hax a (by simp [hsdef])
        have ha' := hax a' (by simp [hsdef])
        have toa : ∀ y ∈ ({a, b, c} : Finset Nat), |freq y - freq a| < 0.1 := by
          intro y hy
          simp only [Finset.mem_insert, Finset.mem_singleton] at hy
          rcases hy with rfl | rfl | rfl
          · exact self _
          · exact hsymm _ _ c1
          · exact hsymm _ _ c2
        have toa' : ∀ y ∈ ({a', b', c'} : Finset Nat), |freq y - freq a'| < 0.1 := by
          intro y hy
          simp only [Finset.mem_insert, Finset.mem_singleton] at hy
          rcases hy with rfl | rfl | rfl
          · exact self _
          · exact hsymm _ _ c1'
          · exact hsymm _ _ c2'
        have hxa := toa x (by simpa using hx)
        have hxa' := toa' x (by simpa using hx')
        have toall : ∀ y ∈ s, |freq y - freq x| < 0.1 := by
          intro y hy
          have hy' := hax y hy
          rcases Finset.mem_union.1 hy with h | h
          · exact tr _ _ _ hy' ha hxs (toa y h) (hsymm _ _ hxa)
          · exact tr _ _ _ hy' ha' hxs (toa' y h) (hsymm _ _ hxa')
        have hcard := hthree s hax (fun u hu v hv =>
          tr _ _ _ (hax u hu) hxs (hax v hv) (toall u hu) (hsymm _ _ (toall v hv)))
        have e1 : ({a, b, c} : Finset Nat).card = 3 := by
          rw [Finset.card_eq_three]; exact ⟨a, b, c, by omega, by omega, by omega, rfl⟩
        have e1' : ({a', b', c'} : Finset Nat).card = 3 := by
          rw [Finset.card_eq_three]; exact ⟨a', b', c', by omega, by omega, by omega, rfl⟩
        have s1 : ({a, b, c} : Finset Nat) = s :=
          Finset.eq_of_subset_of_card_le Finset.subset_union_left (by omega)
        have s2 : ({a', b', c'} : Finset Nat) = s :=
          Finset.eq_of_subset_of_card_le Finset.subset_union_right (by omega)
        have s3 : ({a, b, c} : Finset Nat) = {a', b', c'} := s1.trans s2.symm
        have mA : ∀ y, (y = a ∨ y = b ∨ y = c) ↔ (y = a' ∨ y = b' ∨ y = c') := by
          intro y
          have := congrArg (y ∈ ·) s3
          simpa using this
        have h1 := (mA a).1 (by simp)
        have h2 := (mA b).1 (by simp)
        have h3 := (mA c).1 (by simp)
        apply hne
        have : a = a' ∧ b = b' ∧ c = c' := by omega
        obtain ⟨rfl, rfl, rfl⟩ := this
        rfl
      · simp [Mode.degree, Mode.members] at hdeg
      · simp [Mode.degree, Mode.members] at hdeg
    · rcases (mem_degModes_sym hs).1 hm' with ⟨q, hq, rfl⟩ | ⟨⟨a', b'⟩, hq, rfl⟩ | ⟨j', -, -, -, rfl⟩
      · simp [Mode.degree, Mode.members] at hdeg
      · obtain ⟨l1, c1, n1, n2, t1, t2⟩ := degDoubles_iff.1 hp
        obtain ⟨l1', c1', n1', n2', t1', t2'⟩ := degDoubles_iff.1 hq
        -- any three increasing mutually close indices form a triple
        have notriple : ∀ i j k, i < j → j < k → k < nvib → 0.1 < |freq i| → 0.1 < |freq j| →
            0.1 < |freq k| → |freq i - freq j| < 0.1 → |freq i - freq k| < 0.1 →
            inTriples (degTriples nvib freq) i = false → False := by
          intro i j k h1 h2 h3 f1 f2 f3 g1 g2 hf
          have := inTriples_iff.2 ⟨(i, j, k), degTriples_iff.2
            ⟨⟨h1, h2, h3⟩, g1, g2, f1, f2, f3⟩, List.mem_cons_self⟩
          rw [hf] at this
          exact absurd this (by simp)
        simp only [Mode.members, List.mem_cons, List.not_mem_nil, or_false] at hx hx'
        have hab : ¬ (a = a' ∧ b = b') := by rintro ⟨rfl, rfl⟩; exact hne rfl
        rcases hx with rfl | rfl <;> rcases hx' with rfl | rfl
        · -- shared smaller index
          rcases Nat.lt_trichotomy b b' with h | h | h
          · exact notriple x b b' (by omega) h (by omega) n1 n2 n2' c1 c1' t1
          · exact hab ⟨rfl, h⟩
          · exact notriple x b' b (by omega) h (by omega) n1 n2' n2 c1' c1 t1
        · exact notriple a' x b (by omega) (by omega) (by omega) n1' n1 n2 c1'
            (htrans _ _ _ (by omega) (by omega) (by omega) n1' n1 n2 c1' c1) t1'
        · exact notriple a x b' (by omega) (by omega) (by omega) n1 n2 n2' c1
            (htrans _ _ _ (by omega) (by omega) (by omega) n1 n2 n2' c1 c1') t1
        · rcases Nat.lt_trichotomy a a' with h | h | h
          · exact notriple a a' x h (by omega) (by omega) n1 n1' n2
              (htrans _ _ _ (by omega) (by omega) (by omega) n1 n2 n1' c1 (hsymm _ _ c1')) c1 t1
          · exact hab ⟨h, rfl⟩
          · exact notriple a' a x h (by omega) (by omega) n1' n1 n2
              (htrans _ _ _ (by omega) (by omega) (by omega) n1' n2 n1 c1' (hsymm _ _ c1)) c1' t1'
      · simp [Mode.degree, Mode.members] at hdeg
    · rcases (mem_degModes_sym hs).1 hm' with ⟨q, hq, rfl⟩ | ⟨q, hq, rfl⟩ | ⟨j', -, -, -, rfl⟩
      · simp [Mode.degree, Mode.members] at hdeg
      · simp [Mode.degree, Mode.members] at hdeg
      · simp only [Mode.members, List.mem_singleton] at hx hx'
        exact hne (by rw [← hx, ← hx'])

/-- Frequencies with a degenerate pair and a separate mode, for the example below. -/
def freqPair : Vec ℝ := fun i => if i = 2 then 500 else 1000

/-- The hypotheses of `c17_exactly_once_partial` hold for one degenerate pair and a separate mode. -/
example : ((degModes .oblateSymmTop 3 freqPair).flatMap Mode.members).Nodup := by
  refine (c17_exactly_once_partial .oblateSymmTop 3 freqPair ?_ ?_).1
  · intro i j k _ _ _ _ _ _ h1 h2
    simp only [freqPair] at *
    split_ifs at * <;> norm_num at *
  · intro s hs hc
    have hsub : s ⊆ Finset.range 3 := fun a ha => Finset.mem_range.2 (hs a ha).1
    simpa using Finset.card_le_card hsub

/-- C17 is violated by chains: with frequencies 1000, 1000.06, 1000.12 the middle one belongs to two
different doubly degenerate modes. -/
theorem c17_exactly_once_violated_chain :
    ∃ freq : Vec ℝ, Mode.i2 0 1 ∈ degModes .oblateSymmTop 3 freq ∧
      Mode.i2 1 2 ∈ degModes .oblateSymmTop 3 freq := by
  refine ⟨fun i => 1000 + 0.06 * i, ?_, ?_⟩
  all_goals
    refine (mem_degModes_sym rfl).2 (.inr (.inl ?_))
  · refine ⟨(0, 1), degDoubles_iff.2 ⟨by omega, ?_, ?_, ?_, ?_, ?_⟩, rfl⟩
    · norm_num [abs_lt]
    · norm_num
    · norm_num
    all_goals
      rw [Bool.eq_false_iff]
      intro h
      obtain ⟨⟨a, b, c⟩, hp, -⟩ := inTriples_iff.1 h
      obtain ⟨l, c1, c2, -⟩ := degTriples_iff.1 hp
      have : a = 0 ∧ b = 1 ∧ c = 2 := by omega
      obtain ⟨rfl, rfl, rfl⟩ := this
      norm_num [abs_lt] at c2
  · refine ⟨(1, 2), degDoubles_iff.2 ⟨by omega, ?_, ?_, ?_, ?_, ?_⟩, rfl⟩
    · norm_num [abs_lt]
    · norm_num
    · norm_num
    all_goals
      rw [Bool.eq_false_iff]
      intro h
      obtain ⟨⟨a, b, c⟩, hp, -⟩ := inTriples_iff.1 h
      obtain ⟨l, c1, c2, -⟩ := degTriples_iff.1 hp
      have : a = 0 ∧ b = 1 ∧ c = 2 := by omega
      obtain ⟨rfl, rfl, rfl⟩ := this
      norm_num [abs_lt] at c2

/-- C17 is violated by four equal frequencies: an index then belongs to two different triples. -/
theorem c17_exactly_once_violated_four :
    ∃ freq : Vec ℝ, Mode.i3 0 1 2 ∈ degModes .prolateSymmTop 4 freq ∧
      Mode.i3 0 1 3 ∈ degModes .prolateSymmTop 4 freq := by
  refine ⟨fun _ => 1000, ?_, ?_⟩
  · exact (mem_degModes_sym rfl).2 (.inl ⟨(0, 1, 2), degTriples_iff.2 ⟨by omega, by norm_num⟩, rfl⟩)
  · exact (mem_degModes_sym rfl).2 (.inl ⟨(0, 1, 3), degTriples_iff.2 ⟨by omega, by norm_num⟩, rfl⟩)

/-! ## C18 -/

/-- C18: the counts are the lengths of the three lists of the partition. -/
theorem c18_count (modes : List Mode) :
    Mode.count modes = ((Mode.partition modes).1.length, (Mode.partition modes).2.1.length,
      (Mode.partition modes).2.2.length) := by
  rw [partition_eq]
  unfold Mode.count
  induction modes using List.reverseRecOn with
  | nil => rfl
  | append_singleton l m ih =>
    rw [List.foldl_append, ih]
    cases m <;> simp

/-- C18: each list of the partition, turned back into modes, is the sublist of the modes of that
degeneracy, in order. -/
theorem c18_order (modes : List Mode) :
    (Mode.partition modes).1.map Mode.i1 = modes.filter (fun m => m.degree = 1) ∧
    (Mode.partition modes).2.1.map (fun p => Mode.i2 p.1 p.2) =
      modes.filter (fun m => m.degree = 2) ∧
    (Mode.partition modes).2.2.map (fun p => Mode.i3 p.1 p.2.1 p.2.2) =
      modes.filter (fun m => m.degree = 3) := by
  rw [partition_eq]
  induction modes with
  | nil => exact ⟨rfl, rfl, rfl⟩
  | cons m l ih =>
    obtain ⟨h1, h2, h3⟩ := ih
    cases m <;>
      simp only [List.filterMap_cons, List.map_cons, List.filter_cons] <;>
      simp only [Mode.degree, Mode.members, List.length_cons, List.length_nil] at * <;>
      norm_num <;> exact ⟨h1, h2, h3⟩

/-- C18: the three lists together contain exactly the given modes. -/
theorem c18_complete (modes : List Mode) :
    ((Mode.partition modes).1.map Mode.i1 ++
      (Mode.partition modes).2.1.map (fun p => Mode.i2 p.1 p.2) ++
      (Mode.partition modes).2.2.map (fun p => Mode.i3 p.1 p.2.1 p.2.2)).Perm modes := by
  rw [partition_eq]
  induction modes with
  | nil => exact List.Perm.refl _
  | cons m l ih =>
    cases m
    · simpa using ih
    · simp only [List.filterMap_cons, List.map_cons, List.append_assoc, List.cons_append] at *
      exact List.perm_middle.trans (List.Perm.cons _ ih)
    · simp only [List.filterMap_cons, List.map_cons] at *
      exact List.perm_middle.trans (List.Perm.cons _ ih)

example : Mode.partition [.i2 0 1, .i1 4, .i3 2 3 5, .i1 6] = ([4, 6], [(0, 1)], [(2, 3, 5)]) := rfl

end Verif
