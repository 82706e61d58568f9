import Verif.Lemmas.VanVleckExist

/-!
# The couplings `genrsa` returns

Helpers for C108.
-/

namespace Verif.Osc

open Finset

variable {N : Nat}

/-- Everything the couplings depend on, in order. -/
structure Ready (t : PolyadCtx ℝ) (N : Nat) (g : (Fin N → ℤ) → ℝ) : Prop where
  modes : t.i1mode = List.range N
  den : Den t.freq t.dnm g
  odd : ∀ s, g (-s) = -g s
  pos : ∀ i : Fin N, 0 < t.freq i
  s3 : Sy3 fun i j k : Fin N => t.f3 i j k
  s4 : Sy4 fun i j k l : Fin N => t.f4 i j k l
  zeta : ∀ (i j : Fin N) a, t.zmat i j a = -t.zmat j i a

/-- The coupling in terms of the amplitudes. -/
noncomputable def value (t : PolyadCtx ℝ) (g : (Fin N → ℤ) → ℝ) (a b : Nat → Nat) : ℝ :=
  mean2 t.freq t.f3 t.f4 t.zmat t.rotcon g (toInt fun v : Fin N => a v) (toInt fun v : Fin N => b v)

theorem value_symm (t : PolyadCtx ℝ) (g : (Fin N → ℤ) → ℝ) (a b : Nat → Nat) : value t g a b = value t g b a := by
  unfold value mean2
  rw [add_comm]

theorem sum_range_fin (f : Nat → ℝ) : ((List.range N).map f).sum = ∑ k : Fin N, f k := by
  rw [← Finset.sum_range]; rfl

theorem toInt_at (n : Fin N → Nat) (v : Fin N) : toInt n v = (n v : ℤ) := rfl

theorem toInt_nonneg (n : Fin N → Nat) (v : Fin N) : 0 ≤ toInt n v := by simp [toInt]

section
variable {t : PolyadCtx ℝ} {g : (Fin N → ℤ) → ℝ} (hr : Ready t N g) {a b : Nat → Nat}
include hr

theorem value_aabb (i j : Fin N) (hij : i ≠ j)
    (h : ∀ v < N, b v + (if v = (j : Nat) then 2 else 0) = a v + if v = (i : Nat) then 2 else 0) :
    value t g a b = res2aAabb (List.range N) t.freq t.rotcon t.zmat t.f3 t.f4 t.dnm i j *
      Real.sqrt (((a i : ℝ) + 1) * (a i + 2) * ((b j + 1) * (b j + 2)) / 16) := by
  have hs : unit i + unit i - unit j - unit j = toInt (fun v : Fin N => b v) - toInt fun v : Fin N => a v := by
    funext v
    have := h v v.2
    simp only [Fin.val_inj] at this
    simp only [Pi.sub_apply, Pi.add_apply, unit_at, toInt]
    split_ifs at this ⊢ <;> omega
  unfold value
  rw [mean_aabb hr.den hr.odd hr.pos hr.s3 hr.s4 hr.zeta _ (toInt_nonneg _) (toInt_nonneg _) hij hs]
  simp only [toInt_at, Int.cast_natCast]
  refine sqrt_ratio (wt_pos _) (wt_pos _) (by positivity) (by positivity) ?_ _
  have e : (toInt fun v : Fin N => b v) + unit j + unit j = (toInt fun v : Fin N => a v) + unit i + unit i := by
    linear_combination -hs
  have e1 := wt_add j (m := (toInt fun v : Fin N => b v) + unit j) (by simp only [Pi.add_apply, toInt_at, unit_at, if_true]; omega)
  have e2 := wt_add i (m := (toInt fun v : Fin N => a v) + unit i) (by simp only [Pi.add_apply, toInt_at, unit_at, if_true]; omega)
  rw [e, e2, wt_add j (toInt_nonneg _ _), wt_add i (toInt_nonneg _ _)] at e1
  simp only [Pi.add_apply, toInt_at, unit_at, if_true] at e1
  push_cast at e1
  linear_combination -e1

theorem value_aabc (i j k : Fin N) (hij : i ≠ j) (hik : i ≠ k) (hjk : j ≠ k)
    (h : ∀ v < N, b v + (if v = (j : Nat) then 1 else 0) + (if v = (k : Nat) then 1 else 0) = a v + if v = (i : Nat) then 2 else 0) :
    value t g a b = res2aAabc (List.range N) t.freq t.rotcon t.zmat t.f3 t.f4 t.dnm i j k *
      Real.sqrt (((a i : ℝ) + 1) * (a i + 2) * ((b j + 1) * (b k + 1)) / 16) := by
  have hs : unit i + unit i - unit j - unit k = toInt (fun v : Fin N => b v) - toInt fun v : Fin N => a v := by
    funext v
    have := h v v.2
    simp only [Fin.val_inj] at this
    simp only [Pi.sub_apply, Pi.add_apply, unit_at, toInt]
    split_ifs at this ⊢ <;> omega
  unfold value
  rw [mean_aabc hr.den hr.odd hr.pos hr.s3 hr.s4 hr.zeta _ (toInt_nonneg _) (toInt_nonneg _) hij hik hjk hs]
  simp only [toInt_at, Int.cast_natCast]
  refine sqrt_ratio (wt_pos _) (wt_pos _) (by positivity) (by positivity) ?_ _
  have e : (toInt fun v : Fin N => b v) + unit j + unit k = (toInt fun v : Fin N => a v) + unit i + unit i := by
    linear_combination -hs
  have e1 := wt_add k (m := (toInt fun v : Fin N => b v) + unit j) (by simp only [Pi.add_apply, toInt_at, unit_at]; split_ifs <;> omega)
  have e2 := wt_add i (m := (toInt fun v : Fin N => a v) + unit i) (by simp only [Pi.add_apply, toInt_at, unit_at, if_true]; omega)
  rw [e, e2, wt_add j (toInt_nonneg _ _), wt_add i (toInt_nonneg _ _)] at e1
  simp only [Pi.add_apply, toInt_at, unit_at, if_true, if_neg (Ne.symm hjk)] at e1
  push_cast at e1
  linear_combination -e1

theorem value_loop (i j : Fin N) (hij : i ≠ j)
    (h : ∀ v < N, b v + (if v = (j : Nat) then 1 else 0) = a v + if v = (i : Nat) then 1 else 0) :
    value t g a b = (((a i : ℝ) + 1) * res2aAaab (List.range N) t.freq t.f3 t.f4 t.dnm i j +
        (b j + 1) * res2aAaab (List.range N) t.freq t.f3 t.f4 t.dnm j i +
        ∑ k : Fin N, if k ≠ i ∧ k ≠ j then (a k + 1 / 2) *
          (2 * res2aAcbc (List.range N) t.freq t.rotcon t.zmat t.f3 t.f4 t.dnm i k j) else 0) *
      Real.sqrt (((a i : ℝ) + 1) * (b j + 1) / 16) := by
  have hs : unit i - unit j = toInt (fun v : Fin N => b v) - toInt fun v : Fin N => a v := by
    funext v
    have := h v v.2
    simp only [Fin.val_inj] at this
    simp only [Pi.sub_apply, unit_at, toInt]
    split_ifs at this ⊢ <;> omega
  have hi : b i = a i + 1 := by
    have := h i i.2
    rw [if_pos rfl, if_neg (fun e => hij (Fin.ext e))] at this
    omega
  have hk : ∀ k : Fin N, k ≠ i → k ≠ j → b k = a k := by
    intro k h1 h2
    have := h k k.2
    rw [if_neg (fun e => h1 (Fin.ext e)), if_neg (fun e => h2 (Fin.ext e))] at this
    omega
  unfold value
  rw [mean_loop hr.den hr.odd hr.pos hr.s3 hr.s4 hr.zeta _ (toInt_nonneg _) (toInt_nonneg _) hij hs]
  simp only [toInt_at, Int.cast_natCast]
  rw [← sqrt_ratio (X := (a i : ℝ) + 1) (Y := (b j : ℝ) + 1) (u := wt (toInt fun v : Fin N => b v)) (v := wt (toInt fun v : Fin N => a v))
    (wt_pos _) (wt_pos _) (by positivity) (by positivity)]
  · congr 2
    rw [add_div, add_div, Finset.sum_div, hi]
    push_cast
    congr 1
    · ring
    · refine sum_congr rfl fun k _ => ?_
      split_ifs with h'
      · rw [hk k h'.1 h'.2]; ring
      · ring
  · have e : (toInt fun v : Fin N => b v) + unit j = (toInt fun v : Fin N => a v) + unit i := by
      linear_combination -hs
    have e1 := wt_add j (m := toInt fun v : Fin N => b v) (toInt_nonneg _ _)
    rw [e, wt_add i (toInt_nonneg _ _)] at e1
    simp only [toInt_at] at e1
    push_cast at e1
    linear_combination -e1

/-! ## What `genrsa` returns -/

theorem mode_at (i : Fin N) : t.i1mode[(i : Nat)]? = some (i : Nat) := by
  rw [hr.modes, List.getElem?_range i.2]

theorem gen_aabb (i j : Fin N) (hij : i < j) (hd : ∀ v < N, a v ≠ b v ↔ v = i ∨ v = j)
    (hi : ((b i : ℤ) - a i).natAbs = 2) (hn : (b i : ℤ) - a i + (b j - a j) = 0) :
    genrsa t N a b = some (res2aAabb (List.range N) t.freq t.rotcon t.zmat t.f3 t.f4 t.dnm i j *
      Real.sqrt (((min (a i) (b i) : ℕ) + 1) * ((min (a i) (b i) : ℕ) + 2) * (((min (a j) (b j) : ℕ) + 1) * ((min (a j) (b j) : ℕ) + 2)) / 16)) := by
  have hl : diffList N a b = [diffOf a b i, diffOf a b j] := by
    rw [diffList_eq (l := [(i : Nat), j]) (by simpa using hij) (fun v => ?_)]
    · rfl
    · simp only [List.mem_cons, List.not_mem_nil, or_false]
      constructor
      · rintro (rfl | rfl)
        · exact ⟨i.2, (hd _ i.2).2 (.inl rfl)⟩
        · exact ⟨j.2, (hd _ j.2).2 (.inr rfl)⟩
      · rintro ⟨h1, h2⟩
        exact (hd v h1).1 h2
  have hj : ((b j : ℤ) - a j).natAbs = 2 := by omega
  have hq : quantaApart N a b = 4 := by rw [quantaApart_diffList, hl]; simp [diffOf, hi, hj]
  have hz : netApart N a b = 0 := by rw [netApart_diffList, hl]; simpa [diffOf] using hn
  rw [genrsa_eq, hq, hz, hl, if_neg (by omega)]
  simp only [genrsaCase, if_true, diffOf, res2a, and_self, mode_at hr, Option.bind_eq_bind, Option.bind_some, Option.pure_def, sqrt_real, ofNat_real, lits]
  rw [hr.modes]
  push_cast
  congr 3
  ring

theorem gen_aabc (i p q : Fin N) (hip : i ≠ p) (hiq : i ≠ q) (hpq : p ≠ q)
    (hs : i < p ∧ p < q ∨ p < i ∧ i < q ∨ q < p ∧ p < i) (hd : ∀ v < N, a v ≠ b v ↔ v = i ∨ v = p ∨ v = q)
    (h2 : ((b i : ℤ) - a i).natAbs = 2) (h1 : ((b p : ℤ) - a p).natAbs = 1) (h1' : ((b q : ℤ) - a q).natAbs = 1)
    (hn : (b i : ℤ) - a i + (b p - a p) + (b q - a q) = 0) :
    genrsa t N a b = some (res2aAabc (List.range N) t.freq t.rotcon t.zmat t.f3 t.f4 t.dnm i p q *
      Real.sqrt (((min (a i) (b i) : ℕ) + 1) * ((min (a i) (b i) : ℕ) + 2) * (((min (a p) (b p) : ℕ) + 1) * ((min (a q) (b q) : ℕ) + 1)) / 16)) := by
  have key : ∀ l : List Nat, l.Pairwise (· < ·) → (∀ v, v ∈ l ↔ v = (i : Nat) ∨ v = p ∨ v = q) → diffList N a b = l.map (diffOf a b) := by
    intro l hl hm
    refine diffList_eq hl fun v => ?_
    rw [hm]
    constructor
    · intro h
      have hv : v < N := by
        rcases h with rfl | rfl | rfl
        · exact i.2
        · exact p.2
        · exact q.2
      exact ⟨hv, (hd v hv).2 h⟩
    · rintro ⟨ha, hb⟩
      exact (hd v ha).1 hb
  have n1 : (i : Nat) ≠ p := fun e => hip (Fin.ext e)
  have n2 : (i : Nat) ≠ q := fun e => hiq (Fin.ext e)
  have n3 : (p : Nat) ≠ q := fun e => hpq (Fin.ext e)
  have hres : res2a t i i p q = some (res2aAabc (List.range N) t.freq t.rotcon t.zmat t.f3 t.f4 t.dnm i p q) := by
    unfold res2a
    rw [if_neg (by tauto), if_neg (by tauto), if_neg (by tauto), if_pos ⟨rfl, n1, n3⟩]
    simp only [mode_at hr, Option.bind_eq_bind, Option.bind_some, Option.pure_def]
    rw [hr.modes]
  rcases hs with ⟨s1, s2⟩ | ⟨s1, s2⟩ | ⟨s1, s2⟩
  · have s1' : (i : Nat) < p := s1
    have s2' : (p : Nat) < q := s2
    have hl := key [i, p, q] (by simp; omega) (by simp)
    have hq : quantaApart N a b = 4 := by rw [quantaApart_diffList, hl]; simp [diffOf, h1, h1', h2]
    have hz : netApart N a b = 0 := by rw [netApart_diffList, hl]; simp [diffOf]; omega
    rw [genrsa_eq, hq, hz, hl, if_neg (by omega)]
    simp only [genrsaCase, List.map_cons, List.map_nil, if_true, diffOf]
    have e : sortAabc [(b i : ℤ) - a i, (b p : ℤ) - a p, (b q : ℤ) - a q] [(min (a i) (b i), (i : Nat)), (min (a p) (b p), (p : Nat)), (min (a q) (b q), (q : Nat))] =
        [(min (a i) (b i), (i : Nat)), (min (a p) (b p), (p : Nat)), (min (a q) (b q), (q : Nat))] := by
      simp [sortAabc, List.range_succ, h1, h1', h2]
    rw [e]
    simp only [hres, Option.bind_eq_bind, Option.bind_some, Option.pure_def, sqrt_real, ofNat_real, lits]
    push_cast
    congr 3
    ring
  · have s1' : (p : Nat) < i := s1
    have s2' : (i : Nat) < q := s2
    have hl := key [p, i, q] (by simp; omega) (by intro v; simp; tauto)
    have hq : quantaApart N a b = 4 := by rw [quantaApart_diffList, hl]; simp [diffOf, h1, h1', h2]
    have hz : netApart N a b = 0 := by rw [netApart_diffList, hl]; simp [diffOf]; omega
    rw [genrsa_eq, hq, hz, hl, if_neg (by omega)]
    simp only [genrsaCase, List.map_cons, List.map_nil, if_true, diffOf]
    have e : sortAabc [(b p : ℤ) - a p, (b i : ℤ) - a i, (b q : ℤ) - a q] [(min (a p) (b p), (p : Nat)), (min (a i) (b i), (i : Nat)), (min (a q) (b q), (q : Nat))] =
        [(min (a i) (b i), (i : Nat)), (min (a p) (b p), (p : Nat)), (min (a q) (b q), (q : Nat))] := by
      simp [sortAabc, List.range_succ, h1, h1', h2]
    rw [e]
    simp only [hres, Option.bind_eq_bind, Option.bind_some, Option.pure_def, sqrt_real, ofNat_real, lits]
    push_cast
    congr 3
    ring
  · have s1' : (q : Nat) < p := s1
    have s2' : (p : Nat) < i := s2
    have hl := key [q, p, i] (by simp; omega) (by intro v; simp; tauto)
    have hq : quantaApart N a b = 4 := by rw [quantaApart_diffList, hl]; simp [diffOf, h1, h1', h2]
    have hz : netApart N a b = 0 := by rw [netApart_diffList, hl]; simp [diffOf]; omega
    rw [genrsa_eq, hq, hz, hl, if_neg (by omega)]
    simp only [genrsaCase, List.map_cons, List.map_nil, if_true, diffOf]
    have e : sortAabc [(b q : ℤ) - a q, (b p : ℤ) - a p, (b i : ℤ) - a i] [(min (a q) (b q), (q : Nat)), (min (a p) (b p), (p : Nat)), (min (a i) (b i), (i : Nat))] =
        [(min (a i) (b i), (i : Nat)), (min (a p) (b p), (p : Nat)), (min (a q) (b q), (q : Nat))] := by
      simp [sortAabc, List.range_succ, h1, h1', h2]
    rw [e]
    simp only [hres, Option.bind_eq_bind, Option.bind_some, Option.pure_def, sqrt_real, ofNat_real, lits]
    push_cast
    congr 3
    ring

theorem gen_loop (i j : Fin N) (hij : i < j) (hd : ∀ v < N, a v ≠ b v ↔ v = i ∨ v = j)
    (hi : ((b i : ℤ) - a i).natAbs = 1) (hj : ((b j : ℤ) - a j).natAbs = 1) :
    genrsa t N a b = some ((((min (a i) (b i) : ℕ) + 1) * res2aAaab (List.range N) t.freq t.f3 t.f4 t.dnm i j +
        ((min (a j) (b j) : ℕ) + 1) * res2aAaab (List.range N) t.freq t.f3 t.f4 t.dnm j i +
        ∑ k : Fin N, if k ≠ i ∧ k ≠ j then (a k + 1 / 2) *
          (2 * res2aAcbc (List.range N) t.freq t.rotcon t.zmat t.f3 t.f4 t.dnm i k j) else 0) *
      Real.sqrt (((min (a i) (b i) : ℕ) + 1) * ((min (a j) (b j) : ℕ) + 1) / 16)) := by
  have hl : diffList N a b = [diffOf a b i, diffOf a b j] := by
    rw [diffList_eq (l := [(i : Nat), j]) (by simpa using hij) (fun v => ?_)]
    · rfl
    · simp only [List.mem_cons, List.not_mem_nil, or_false]
      constructor
      · rintro (rfl | rfl)
        · exact ⟨i.2, (hd _ i.2).2 (.inl rfl)⟩
        · exact ⟨j.2, (hd _ j.2).2 (.inr rfl)⟩
      · rintro ⟨h1, h2⟩
        exact (hd v h1).1 h2
  have hq : quantaApart N a b = 2 := by rw [quantaApart_diffList, hl]; simp [diffOf, hi, hj]
  rw [genrsa_eq, hq, hl, if_neg (by omega)]
  simp only [genrsaCase, diffOf, if_true, if_false, show (2 : Nat) = 4 ↔ False by decide,
    show (2 : Nat) = 3 ↔ False by decide]
  generalize min (a i) (b i) = x
  generalize min (a j) (b j) = y
  have n1 : (i : Nat) ≠ j := Nat.ne_of_lt hij
  have r1 : res2a t i i i j = some (res2aAaab (List.range N) t.freq t.f3 t.f4 t.dnm i j) := by
    unfold res2a
    rw [if_neg (by tauto), if_pos ⟨rfl, rfl⟩]
    simp only [mode_at hr, Option.bind_eq_bind, Option.bind_some, Option.pure_def]
    rw [hr.modes]
  have r2 : res2a t j j j i = some (res2aAaab (List.range N) t.freq t.f3 t.f4 t.dnm j i) := by
    unfold res2a
    rw [if_neg (by tauto), if_pos ⟨rfl, rfl⟩]
    simp only [mode_at hr, Option.bind_eq_bind, Option.bind_some, Option.pure_def]
    rw [hr.modes]
  have r3 : ∀ k : Fin N, k ≠ i → k ≠ j → res2a t i k j k =
      some (res2aAcbc (List.range N) t.freq t.rotcon t.zmat t.f3 t.f4 t.dnm i k j) := by
    intro k hki hkj
    have m1 : (k : Nat) ≠ i := fun e => hki (Fin.ext e)
    have m2 : (k : Nat) ≠ j := fun e => hkj (Fin.ext e)
    unfold res2a
    rw [if_neg (by tauto), if_neg (by tauto), if_pos ⟨rfl, n1, Ne.symm m1⟩]
    simp only [mode_at hr, Option.bind_eq_bind, Option.bind_some, Option.pure_def]
    rw [hr.modes]
  set S := Real.sqrt (((x : ℝ) + 1) * (y + 1) / 16) with hS
  have q1 : Real.sqrt (((x : ℝ) + 1) ^ 3 * (y + 1) / 16) = (x + 1) * S := by
    rw [show ((x : ℝ) + 1) ^ 3 * (y + 1) / 16 = (x + 1) ^ 2 * ((x + 1) * (y + 1) / 16) by ring,
      Real.sqrt_mul (by positivity), Real.sqrt_sq (by positivity)]
  have q2 : Real.sqrt (((y : ℝ) + 1) ^ 3 * (x + 1) / 16) = (y + 1) * S := by
    rw [show ((y : ℝ) + 1) ^ 3 * (x + 1) / 16 = (y + 1) ^ 2 * ((x + 1) * (y + 1) / 16) by ring,
      Real.sqrt_mul (by positivity), Real.sqrt_sq (by positivity)]
  have q3 : ∀ k : Nat, Real.sqrt (((x : ℝ) + 1) * (y + 1) * (k + 1 / 2) ^ 2 / 16) = (k + 1 / 2) * S := by
    intro k
    rw [show ((x : ℝ) + 1) * (y + 1) * (k + 1 / 2) ^ 2 / 16 = (k + 1 / 2) ^ 2 * ((x + 1) * (y + 1) / 16) by ring,
      Real.sqrt_mul (by positivity), Real.sqrt_sq (by positivity)]
  unfold genrsaOneOne
  rw [foldlM_some (c := fun k => if k ≠ (i : Nat) ∧ k ≠ (j : Nat) then (a k + 1 / 2) *
      (2 * res2aAcbc (List.range N) t.freq t.rotcon t.zmat t.f3 t.f4 t.dnm i k j) * S else 0)]
  · simp only [r1, r2, Option.bind_eq_bind, Option.bind_some, Option.pure_def, sqrt_real, ofNat_real, lits]
    push_cast
    rw [q1, q2, sum_range_fin]
    congr 1
    have : ∀ k : Fin N, (if (k : Nat) ≠ (i : Nat) ∧ (k : Nat) ≠ (j : Nat) then ((a k : ℝ) + 1 / 2) *
        (2 * res2aAcbc (List.range N) t.freq t.rotcon t.zmat t.f3 t.f4 t.dnm i k j) * S else 0) =
      (if k ≠ i ∧ k ≠ j then ((a k : ℝ) + 1 / 2) * (2 * res2aAcbc (List.range N) t.freq t.rotcon t.zmat t.f3 t.f4 t.dnm i k j) else 0) * S := by
      intro k
      by_cases hk : k ≠ i ∧ k ≠ j
      · rw [if_pos hk, if_pos ⟨fun e => hk.1 (Fin.ext e), fun e => hk.2 (Fin.ext e)⟩]
      · rw [if_neg hk, if_neg (fun h => hk ⟨fun e => h.1 (congrArg _ e), fun e => h.2 (congrArg _ e)⟩), zero_mul]
    simp only [this, ← sum_mul]
    ring
  · intro z k hk
    have hkN := List.mem_range.1 hk
    split_ifs with h1 h2
    · exfalso
      have := (hd k hkN).1 h2
      tauto
    · rw [r3 ⟨k, hkN⟩ (fun e => h1.1 (congrArg Fin.val e)) (fun e => h1.2 (congrArg Fin.val e))]
      simp only [Option.bind_eq_bind, Option.bind_some, Option.pure_def, sqrt_real, ofNat_real, lits, sq_real]
      push_cast
      rw [q3]
      congr 1
      ring
    · simp

/-! ## Both together -/

theorem two_two (i j : Fin N) (hij : i ≠ j)
    (h : ∀ v < N, b v + (if v = (j : Nat) then 2 else 0) = a v + if v = (i : Nat) then 2 else 0) :
    genrsa t N a b = some (value t g a b) := by
  have n1 : (i : Nat) ≠ j := fun e => hij (Fin.ext e)
  have hi := h i i.2
  have hj := h j j.2
  rw [if_pos rfl, if_neg n1] at hi
  rw [if_pos rfl, if_neg (Ne.symm n1)] at hj
  have hd : ∀ v < N, a v ≠ b v ↔ v = (i : Nat) ∨ v = j := by
    intro v hv
    have := h v hv
    split_ifs at this <;> omega
  have m1 : min (a i) (b i) = a i := by omega
  have m2 : min (a j) (b j) = b j := by omega
  rcases lt_or_gt_of_ne hij with hlt | hlt
  · rw [gen_aabb hr i j hlt hd (by omega) (by omega), value_aabb hr i j hij h, m1, m2]
  · rw [gen_aabb hr j i hlt (fun v hv => (hd v hv).trans or_comm) (by omega) (by omega), value_symm,
      value_aabb hr j i hij.symm (fun v hv => (h v hv).symm), m1, m2]

theorem two_one_one (i j k : Fin N) (hij : i ≠ j) (hik : i ≠ k) (hjk : j ≠ k)
    (h : ∀ v < N, b v + (if v = (j : Nat) then 1 else 0) + (if v = (k : Nat) then 1 else 0) = a v + if v = (i : Nat) then 2 else 0) :
    genrsa t N a b = some (value t g a b) := by
  have aux : ∀ p q : Fin N, i ≠ p → i ≠ q → p ≠ q → (i < p ∧ p < q ∨ p < i ∧ i < q ∨ q < p ∧ p < i) →
      (∀ v < N, b v + (if v = (p : Nat) then 1 else 0) + (if v = (q : Nat) then 1 else 0) = a v + if v = (i : Nat) then 2 else 0) →
      genrsa t N a b = some (value t g a b) := by
    intro p q hip hiq hpq hs h
    have n1 : (i : Nat) ≠ p := fun e => hip (Fin.ext e)
    have n2 : (i : Nat) ≠ q := fun e => hiq (Fin.ext e)
    have n3 : (p : Nat) ≠ q := fun e => hpq (Fin.ext e)
    have hi := h i i.2
    have hp := h p p.2
    have hq := h q q.2
    rw [if_pos rfl, if_neg n1, if_neg n2] at hi
    rw [if_pos rfl, if_neg (Ne.symm n1), if_neg n3] at hp
    rw [if_pos rfl, if_neg (Ne.symm n2), if_neg (Ne.symm n3)] at hq
    rw [gen_aabc hr i p q hip hiq hpq hs (fun v hv => by have := h v hv; split_ifs at this <;> omega) (by omega) (by omega) (by omega)
      (by omega), value_aabc hr i p q hip hiq hpq h, show min (a i) (b i) = a i by omega, show min (a p) (b p) = b p by omega,
      show min (a q) (b q) = b q by omega]
  have h' : ∀ v < N, b v + (if v = (k : Nat) then 1 else 0) + (if v = (j : Nat) then 1 else 0) = a v + if v = (i : Nat) then 2 else 0 :=
    fun v hv => by rw [← h v hv]; ring
  have hsort : (i < j ∧ j < k ∨ j < i ∧ i < k ∨ k < j ∧ j < i) ∨ (i < k ∧ k < j ∨ k < i ∧ i < j ∨ j < k ∧ k < i) := by
    rcases lt_or_gt_of_ne hij with h1 | h1 <;> rcases lt_or_gt_of_ne hik with h2 | h2 <;> rcases lt_or_gt_of_ne hjk with h3 | h3 <;> tauto
  rcases hsort with hs | hs
  · exact aux j k hij hik hjk hs h
  · exact aux k j hik hij hjk.symm hs h'

theorem one_one (i j : Fin N) (hij : i ≠ j)
    (h : ∀ v < N, b v + (if v = (j : Nat) then 1 else 0) = a v + if v = (i : Nat) then 1 else 0) :
    genrsa t N a b = some (value t g a b) := by
  have n1 : (i : Nat) ≠ j := fun e => hij (Fin.ext e)
  have hi := h i i.2
  have hj := h j j.2
  rw [if_pos rfl, if_neg n1] at hi
  rw [if_pos rfl, if_neg (Ne.symm n1)] at hj
  have hd : ∀ v < N, a v ≠ b v ↔ v = (i : Nat) ∨ v = j := by
    intro v hv
    have := h v hv
    split_ifs at this <;> omega
  have m1 : min (a i) (b i) = a i := by omega
  have m2 : min (a j) (b j) = b j := by omega
  rcases lt_or_gt_of_ne hij with hlt | hlt
  · rw [gen_loop hr i j hlt hd (by omega) (by omega), value_loop hr i j hij h, m1, m2]
  · rw [c61_symmetric, gen_loop hr j i hlt (fun v hv => ne_comm.trans ((hd v hv).trans or_comm)) (by omega) (by omega), value_symm,
      value_loop hr j i hij.symm (fun v hv => (h v hv).symm), min_comm (b i), min_comm (b j), m1, m2]

end

/-! ## The cubic potential between two states -/

theorem unit_two_one {i j k x y z : Fin N} (hki : k ≠ i) (hkj : k ≠ j) :
    unit x + unit y - unit z = unit i + unit j - unit k ↔ (x = i ∧ y = j ∨ x = j ∧ y = i) ∧ z = k := by
  constructor
  · intro h
    have hR : ResRel fun u v w : Fin N => (u = i ∧ v = j ∨ u = j ∧ v = i) ∧ w = k := by
      refine ⟨fun u v w h => ⟨by tauto, h.2⟩, fun u v w h => ?_⟩
      obtain ⟨⟨rfl, rfl⟩ | ⟨rfl, rfl⟩, rfl⟩ := h
      · exact ⟨hki, hkj⟩
      · exact ⟨hkj, hki⟩
    refine (shift_iff hR x y z).1 ?_
    rw [h]
    exact ⟨i, j, k, ⟨.inl ⟨rfl, rfl⟩, rfl⟩, .inl rfl⟩
  · rintro ⟨⟨rfl, rfl⟩ | ⟨rfl, rfl⟩, rfl⟩
    · rfl
    · abel

/-- The cubic potential between states that differ by quanta in `i` and `j` against one in `k`. -/
theorem cub_shift {φ : Fin N → Fin N → Fin N → ℝ} (hφ : Sy3 φ) {n m : Fin N → ℤ} {i j k : Fin N} (hki : k ≠ i) (hkj : k ≠ j)
    (h : unit i + unit j - unit k = m - n) :
    cub φ (one n) m = rt ^ 3 * (φ i j k * ((m k : ℝ) + 1)) * if i = j then 1 / 2 else 1 := by
  have hT : ∀ x y z : Leg (Fin N), lop x (lop y (lop z (one n))) m =
      if net x + net y + net z = m - n then co x m * (co y (m - net x) * co z (m - net x - net y)) else 0 := by
    intro x y z
    simp only [lop_apply, one]
    by_cases hc : net x + net y + net z = m - n
    · rw [if_pos hc, if_pos]
      · ring
      · rw [show m - net x - net y - net z = m - (net x + net y + net z) by abel, hc]; abel
    · rw [if_neg hc, if_neg, mul_zero, mul_zero, mul_zero]
      intro e
      apply hc
      rw [← e]; abel
  have s1 : ∀ s : Fin N → ℤ, s = m - n → ∑ v, s v = 1 := by
    rintro s rfl
    rw [← h]
    simp [sum_sub_distrib, sum_add_distrib, sum_unit]
  have tot : ∀ x y z : Leg (Fin N), net x + net y + net z = m - n →
      (if x.2 then (1 : ℤ) else -1) + (if y.2 then 1 else -1) + (if z.2 then 1 else -1) = 1 := by
    intro x y z e
    have := s1 _ e
    simp only [Pi.add_apply, sum_add_distrib, sum_net] at this
    exact this
  have no : ∀ x y z : Leg (Fin N), ¬ ((if x.2 then (1 : ℤ) else -1) + (if y.2 then 1 else -1) + (if z.2 then 1 else -1) = 1) →
      lop x (lop y (lop z (one n))) m = 0 := fun x y z hn => by rw [hT, if_neg fun e => hn (tot x y z e)]
  have c1 : ∀ x y : Fin N, (x = i ∧ y = j ∨ x = j ∧ y = i) → unit x k = 0 ∧ unit y k = 0 := by
    rintro x y (⟨rfl, rfl⟩ | ⟨rfl, rfl⟩) <;> simp [unit_at, hki, hkj]
  have v1 : ∀ x y z : Fin N, lop (x, true) (lop (y, true) (lop (z, false) (one n))) m =
      if (x = i ∧ y = j ∨ x = j ∧ y = i) ∧ z = k then (m k : ℝ) + 1 else 0 := by
    intro x y z
    rw [hT]
    refine if_ctx_congr ?_ (fun hc => ?_) fun _ => rfl
    · rw [← unit_two_one hki hkj, ← h]; simp only [net, if_true, Bool.false_eq_true, if_false, ← sub_eq_add_neg]
    · obtain ⟨e1, e2⟩ := c1 x y hc.1
      simp [co, net, hc.2, e1, e2]
  have v2 : ∀ x y z : Fin N, lop (x, true) (lop (z, false) (lop (y, true) (one n))) m =
      if (x = i ∧ y = j ∨ x = j ∧ y = i) ∧ z = k then (m k : ℝ) + 1 else 0 := by
    intro x y z
    rw [hT]
    refine if_ctx_congr ?_ (fun hc => ?_) fun _ => rfl
    · rw [← unit_two_one hki hkj, ← h]; simp only [net, if_true, Bool.false_eq_true, if_false, ← sub_eq_add_neg]
      rw [show unit x - unit z + unit y = unit x + unit y - unit z by abel]
    · obtain ⟨e1, e2⟩ := c1 x y hc.1
      simp [co, net, hc.2, e1]
  have v3 : ∀ x y z : Fin N, lop (z, false) (lop (x, true) (lop (y, true) (one n))) m =
      if (x = i ∧ y = j ∨ x = j ∧ y = i) ∧ z = k then (m k : ℝ) + 1 else 0 := by
    intro x y z
    rw [hT]
    refine if_ctx_congr ?_ (fun hc => ?_) fun _ => rfl
    · rw [← unit_two_one hki hkj, ← h]; simp only [net, if_true, Bool.false_eq_true, if_false]
      rw [show -unit z + unit x + unit y = unit x + unit y - unit z by abel]
    · simp [co, hc.2]
  have key : ∀ G : Fin N → Fin N → Fin N → ℝ, (∀ x y z, G x y z = G y x z) → (∑ x, ∑ y, ∑ z, G x y z *
      if (x = i ∧ y = j ∨ x = j ∧ y = i) ∧ z = k then (m k : ℝ) + 1 else 0) = (G i j k * ((m k : ℝ) + 1)) * if i = j then 1 else 2 := by
    intro G hG
    have e : ∀ x y : Fin N, (∑ z, G x y z * if (x = i ∧ y = j ∨ x = j ∧ y = i) ∧ z = k then (m k : ℝ) + 1 else 0) =
        if (x = i ∧ y = j ∨ x = j ∧ y = i) then G x y k * ((m k : ℝ) + 1) else 0 := by
      intro x y
      rw [Fintype.sum_eq_single k fun z hz => by rw [if_neg (fun h => hz h.2), mul_zero]]
      by_cases hc : (x = i ∧ y = j ∨ x = j ∧ y = i)
      · rw [if_pos hc, if_pos ⟨hc, rfl⟩]
      · rw [if_neg hc, if_neg (fun h => hc h.1), mul_zero]
    simp only [e]
    by_cases hij : i = j
    · subst hij
      rw [Fintype.sum_eq_single i fun x hx => sum_eq_zero fun y _ => if_neg (by tauto),
        Fintype.sum_eq_single i fun y hy => if_neg (by tauto), if_pos (by simp), if_pos rfl, mul_one]
    · rw [Fintype.sum_eq_add i j hij fun x hx => sum_eq_zero fun y _ => if_neg (by tauto),
        Fintype.sum_eq_single j fun y hy => if_neg (by tauto), Fintype.sum_eq_single i fun y hy => if_neg (by tauto),
        if_pos (by simp), if_pos (by simp), if_neg hij, hG j i k]
      ring
  have sy : ∀ x y z, φ x y z = φ y x z ∧ φ x y z = φ x z y := hφ
  rw [cub_cube, Pi.smul_apply, smul_eq_mul, cube_apply]
  have e8 : ∀ x y z : Fin N, leg3 φ (x, true) (y, true) (z, true) * lop (x, true) (lop (y, true) (lop (z, true) (one n))) m +
      leg3 φ (x, true) (y, true) (z, false) * lop (x, true) (lop (y, true) (lop (z, false) (one n))) m +
      (leg3 φ (x, true) (y, false) (z, true) * lop (x, true) (lop (y, false) (lop (z, true) (one n))) m +
      leg3 φ (x, true) (y, false) (z, false) * lop (x, true) (lop (y, false) (lop (z, false) (one n))) m) +
      (leg3 φ (x, false) (y, true) (z, true) * lop (x, false) (lop (y, true) (lop (z, true) (one n))) m +
      leg3 φ (x, false) (y, true) (z, false) * lop (x, false) (lop (y, true) (lop (z, false) (one n))) m +
      (leg3 φ (x, false) (y, false) (z, true) * lop (x, false) (lop (y, false) (lop (z, true) (one n))) m +
      leg3 φ (x, false) (y, false) (z, false) * lop (x, false) (lop (y, false) (lop (z, false) (one n))) m)) =
      φ x y z * (if (x = i ∧ y = j ∨ x = j ∧ y = i) ∧ z = k then (m k : ℝ) + 1 else 0) +
      φ x z y * (if (x = i ∧ z = j ∨ x = j ∧ z = i) ∧ y = k then (m k : ℝ) + 1 else 0) +
      φ y z x * (if (y = i ∧ z = j ∨ y = j ∧ z = i) ∧ x = k then (m k : ℝ) + 1 else 0) := by
    intro x y z
    rw [v1, v2, v3, no (x, true) (y, true) (z, true) (by simp), no (x, true) (y, false) (z, false) (by simp),
      no (x, false) (y, true) (z, false) (by simp), no (x, false) (y, false) (z, true) (by simp),
      no (x, false) (y, false) (z, false) (by simp)]
    simp only [leg3]
    rw [(sy x y z).2, show φ y z x = φ x z y by rw [(sy y z x).2, (sy y x z).1, (sy x y z).2]]
    ring
  have e : ∑ x, ∑ y, ∑ z, leg3 φ x y z * lop x (lop y (lop z (one n))) m = 3 * ((φ i j k * ((m k : ℝ) + 1)) * if i = j then 1 else 2) := by
    simp only [sum_leg, ← sum_add_distrib]
    refine (sum_congr rfl fun x _ => sum_congr rfl fun y _ => sum_congr rfl fun z _ => e8 x y z).trans ?_
    simp only [sum_add_distrib]
    have k1 := key φ fun x y z => (sy x y z).1
    have k2 : (∑ x, ∑ y, ∑ z, φ x z y * if (x = i ∧ z = j ∨ x = j ∧ z = i) ∧ y = k then (m k : ℝ) + 1 else 0) =
        (φ i j k * ((m k : ℝ) + 1)) * if i = j then 1 else 2 :=
      (sum_congr rfl fun x _ => sum_comm).trans k1
    have k3 : (∑ x, ∑ y, ∑ z, φ y z x * if (y = i ∧ z = j ∨ y = j ∧ z = i) ∧ x = k then (m k : ℝ) + 1 else 0) =
        (φ i j k * ((m k : ℝ) + 1)) * if i = j then 1 else 2 :=
      (sum_comm.trans (sum_congr rfl fun x _ => sum_comm)).trans k1
    rw [k1, k2, k3]; ring
  rw [e]
  split_ifs <;> ring

end Verif.Osc
