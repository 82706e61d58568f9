import Verif.Spec.Mode
import Verif.Lemmas.Loop
import Mathlib.Data.Finset.Card

/-! Lemmas about mode classification. -/

namespace Verif

variable {α : Type} [Arith α]

theorem mem_incPairs {n i j : Nat} : (i, j) ∈ incPairs n ↔ i < j ∧ j < n := by
  simp only [incPairs, List.mem_flatMap, List.mem_range, List.mem_map, List.mem_range'_1]
  constructor
  · rintro ⟨a, ha, b, hb, h⟩
    simp only [Prod.mk.injEq] at h
    omega
  · intro h
    exact ⟨i, by omega, j, by omega, rfl⟩

theorem mem_incTriples {n i j k : Nat} : (i, j, k) ∈ incTriples n ↔ i < j ∧ j < k ∧ k < n := by
  simp only [incTriples, List.mem_flatMap, List.mem_range, List.mem_map, List.mem_range'_1]
  constructor
  · rintro ⟨a, ha, b, hb, c, hc, h⟩
    simp only [Prod.mk.injEq] at h
    omega
  · intro h
    exact ⟨i, by omega, j, by omega, k, by omega, rfl⟩

theorem incPairs_nodup (n : Nat) : (incPairs n).Nodup := by
  unfold incPairs
  rw [List.nodup_flatMap]
  refine ⟨fun i _ => (List.nodup_range' ..).map (fun a b h => by simpa using h), ?_⟩
  refine List.nodup_range.imp ?_
  intro a b hab
  simp only [Function.onFun, List.disjoint_left, List.mem_map]
  rintro x ⟨c, -, rfl⟩ ⟨d, -, h⟩
  simp only [Prod.mk.injEq] at h
  exact hab h.1.symm

theorem incTriples_nodup (n : Nat) : (incTriples n).Nodup := by
  unfold incTriples
  rw [List.nodup_flatMap]
  constructor
  · intro i _
    rw [List.nodup_flatMap]
    refine ⟨fun j _ => (List.nodup_range' ..).map (fun a b h => by simpa using h), ?_⟩
    refine (List.nodup_range' ..).imp ?_
    intro a b hab
    simp only [Function.onFun, List.disjoint_left, List.mem_map]
    rintro x ⟨c, -, rfl⟩ ⟨d, -, h⟩
    simp only [Prod.mk.injEq] at h
    exact hab h.2.1.symm
  · refine List.nodup_range.imp ?_
    intro a b hab
    simp only [Function.onFun, List.disjoint_left, List.mem_map, List.mem_flatMap]
    rintro x ⟨c, -, e, -, rfl⟩ ⟨d, -, f, -, h⟩
    simp only [Prod.mk.injEq] at h
    exact hab h.1.symm

theorem inTriples_iff {l : List (Nat × Nat × Nat)} {x : Nat} :
    inTriples l x = true ↔ ∃ p ∈ l, x ∈ [p.1, p.2.1, p.2.2] := by
  simp [inTriples, or_assoc]

theorem inDoubles_iff {l : List (Nat × Nat)} {x : Nat} :
    inDoubles l x = true ↔ ∃ p ∈ l, x ∈ [p.1, p.2] := by
  simp [inDoubles]

/-- What the list of modes of a symmetric top contains. -/
theorem mem_degModes_sym {rotor : Rotor} (h : rotor.isSymTop = true) {nvib : Nat} {freq : Vec α}
    {m : Mode} : m ∈ degModes rotor nvib freq ↔
      (∃ p ∈ degTriples nvib freq, m = .i3 p.1 p.2.1 p.2.2) ∨
      (∃ p ∈ degDoubles nvib freq, m = .i2 p.1 p.2) ∨
      (∃ i, i < nvib ∧ inTriples (degTriples nvib freq) i = false ∧
        inDoubles (degDoubles nvib freq) i = false ∧ m = .i1 i) := by
  simp only [degModes, h, if_true, List.mem_append, List.mem_map, List.mem_filter, List.mem_range,
    Bool.and_eq_true, Bool.not_eq_true']
  constructor
  · rintro ((⟨p, hp, rfl⟩ | ⟨p, hp, rfl⟩) | ⟨i, ⟨hi, h1, h2⟩, rfl⟩)
    · exact .inl ⟨p, hp, rfl⟩
    · exact .inr (.inl ⟨p, hp, rfl⟩)
    · exact .inr (.inr ⟨i, hi, h1, h2, rfl⟩)
  · rintro (⟨p, hp, rfl⟩ | ⟨p, hp, rfl⟩ | ⟨i, hi, h1, h2, rfl⟩)
    · exact .inl (.inl ⟨p, hp, rfl⟩)
    · exact .inl (.inr ⟨p, hp, rfl⟩)
    · exact .inr ⟨i, ⟨hi, h1, h2⟩, rfl⟩

theorem degModes_nodup (rotor : Rotor) (nvib : Nat) (freq : Vec α) :
    (degModes rotor nvib freq).Nodup := by
  unfold degModes
  split
  · refine List.Nodup.append (List.Nodup.append ?_ ?_ ?_) ?_ ?_
    · refine ((incTriples_nodup nvib).filter _).map ?_
      rintro ⟨a, b, c⟩ ⟨a', b', c'⟩ h
      simpa using h
    · refine ((incPairs_nodup nvib).filter _).map ?_
      rintro ⟨a, b⟩ ⟨a', b'⟩ h
      simpa using h
    · simp only [List.disjoint_left, List.mem_map]
      rintro x ⟨p, -, rfl⟩ ⟨q, -, h⟩
      exact absurd h (by simp)
    · exact (List.nodup_range.filter _).map (fun a b h => by simpa using h)
    · simp only [List.disjoint_left, List.mem_append, List.mem_map]
      rintro x (⟨p, -, rfl⟩ | ⟨p, -, rfl⟩) ⟨q, -, h⟩
      · exact absurd h (by simp)
      · exact absurd h (by simp)
  · exact List.nodup_range.map (fun a b h => by simpa using h)

theorem degTriples_lt {nvib : Nat} {freq : Vec α} {p : Nat × Nat × Nat}
    (h : p ∈ degTriples nvib freq) : p.1 < p.2.1 ∧ p.2.1 < p.2.2 ∧ p.2.2 < nvib := by
  obtain ⟨a, b, c⟩ := p
  exact mem_incTriples.1 (List.mem_filter.1 h).1

theorem degDoubles_lt {nvib : Nat} {freq : Vec α} {p : Nat × Nat}
    (h : p ∈ degDoubles nvib freq) : p.1 < p.2 ∧ p.2 < nvib := by
  obtain ⟨a, b⟩ := p
  exact mem_incPairs.1 (List.mem_filter.1 h).1

theorem degDoubles_not_triple {nvib : Nat} {freq : Vec α} {p : Nat × Nat}
    (h : p ∈ degDoubles nvib freq) : inTriples (degTriples nvib freq) p.1 = false ∧
      inTriples (degTriples nvib freq) p.2 = false := by
  have := (List.mem_filter.1 h).2
  simp only [Bool.and_eq_true, Bool.not_eq_true'] at this
  exact ⟨this.1.2, this.2⟩

theorem degTriples_iff {nvib : Nat} {freq : Vec ℝ} {i j k : Nat} :
    (i, j, k) ∈ degTriples nvib freq ↔ (i < j ∧ j < k ∧ k < nvib) ∧
      |freq i - freq j| < 0.1 ∧ |freq i - freq k| < 0.1 ∧
      0.1 < |freq i| ∧ 0.1 < |freq j| ∧ 0.1 < |freq k| := by
  simp only [degTriples, List.mem_filter, mem_incTriples, close, DEG_TOL, Bool.and_eq_true, lt_real,
    lit_real, abs_real, List.all_cons, List.all_nil, and_true, and_assoc]
  norm_num

theorem degDoubles_iff {nvib : Nat} {freq : Vec ℝ} {i j : Nat} :
    (i, j) ∈ degDoubles nvib freq ↔ (i < j ∧ j < nvib) ∧
      |freq i - freq j| < 0.1 ∧ 0.1 < |freq i| ∧ 0.1 < |freq j| ∧
      inTriples (degTriples nvib freq) i = false ∧ inTriples (degTriples nvib freq) j = false := by
  simp only [degDoubles, List.mem_filter, mem_incPairs, close, DEG_TOL, Bool.and_eq_true, lt_real,
    lit_real, abs_real, List.all_cons, List.all_nil, and_true, and_assoc, Bool.not_eq_true']
  norm_num

/-- `Mode.partition` in closed form. -/
theorem partition_eq (modes : List Mode) : Mode.partition modes =
    (modes.filterMap (fun m => match m with | .i1 i => some i | _ => none),
      modes.filterMap (fun m => match m with | .i2 i j => some (i, j) | _ => none),
      modes.filterMap (fun m => match m with | .i3 i j k => some (i, j, k) | _ => none)) := by
  unfold Mode.partition
  induction modes using List.reverseRecOn with
  | nil => rfl
  | append_singleton l m ih =>
    rw [List.foldl_append, ih]
    cases m <;> simp

theorem partition_asym (rotor : Rotor) (h : rotor.isSymTop = false) (n : Nat) (freq : Vec α) :
    Mode.partition (degModes rotor n freq) = (List.range n, [], []) := by
  rw [partition_eq]
  simp only [degModes, h, Bool.false_eq_true, if_false, List.filterMap_map]
  have e : ((fun m => match m with | Mode.i1 i => some i | _ => none) ∘ Mode.i1) = some := by
    funext; rfl
  rw [e]
  simp

end Verif
