import Verif.Lemmas.Load
import Verif.Lemmas.Rotate
import Verif.Model.Normal
import Verif.Spec.Normal
import Verif.Props.Index

/-! Lemmas for C10–C16, C62. -/

namespace Verif

section Generic

variable {α : Type} [Arith α]

theorem mem_upperPairs {n i j : Nat} : (i, j) ∈ upperPairs n ↔ i ≤ j ∧ j < n := by
  simp only [upperPairs, List.mem_flatMap, List.mem_range, List.mem_map, List.mem_range'_1,
    Prod.mk.injEq]
  constructor
  · rintro ⟨a, ha, b, hb, rfl, rfl⟩; omega
  · intro h; exact ⟨i, by omega, j, by omega, rfl, rfl⟩

theorem upperPairs_nodup (n : Nat) : (upperPairs n).Nodup := by
  unfold upperPairs
  rw [List.nodup_flatMap]
  constructor
  · intro i _
    exact (List.nodup_range' (step := 1)).map (fun a b h => by simpa using h)
  · apply List.nodup_range.imp
    intro a b hab x hx hy
    simp only [List.mem_map] at hx hy
    obtain ⟨_, _, rfl⟩ := hx
    obtain ⟨_, _, h⟩ := hy
    simp at h
    exact hab h.1.symm

omit [Arith α] in
/-- Loop that updates the entries listed (each once) from their own old value. -/
theorem foldl_update (L : List (Nat × Nat)) (hL : L.Nodup) (f : Nat → Nat → α → α) (m : Mat α)
    (i j : Nat) :
    L.foldl (fun m p => Mat.set m p.1 p.2 (f p.1 p.2 (m p.1 p.2))) m i j =
      if (i, j) ∈ L then f i j (m i j) else m i j := by
  induction L generalizing m with
  | nil => simp
  | cons p L ih =>
    rw [List.nodup_cons] at hL
    rw [List.foldl_cons, ih hL.2]
    obtain ⟨a, b⟩ := p
    simp only [Mat.set, List.mem_cons, Prod.mk.injEq]
    by_cases h : i = a ∧ j = b
    · obtain ⟨rfl, rfl⟩ := h
      simp [hL.1]
    · simp [h]

theorem formSec_upper (n : Nat) (fx : Mat α) (sqm : Vec α) (i j : Nat) (h : i ≤ j) (hj : j < n) :
    formSec n fx sqm i j = sqm (i / 3) * fx i j * sqm (j / 3) := by
  unfold formSec fillLower
  rw [if_neg (by omega), foldl_update _ (upperPairs_nodup n)
    (fun i j x => sqm (i / 3) * x * sqm (j / 3)), if_pos (mem_upperPairs.mpr ⟨h, hj⟩)]

theorem formSec_lower (n : Nat) (fx : Mat α) (sqm : Vec α) (i j : Nat) (h : j ≤ i) :
    formSec n fx sqm i j = formSec n fx sqm j i := by
  rcases Nat.lt_or_eq_of_le h with h | rfl
  · unfold formSec fillLower
    rw [if_pos h, if_neg (by omega)]
  · rfl

theorem makeLx_apply (n : Nat) (sqm : Vec α) (lxm : Mat α) (i j : Nat) (hi : i < n) (hj : j < n) :
    makeLx n sqm lxm i j = sqm (i / 3) * lxm i j := by
  unfold makeLx
  rw [foldl_update _ (pairs_nodup n n) (fun i j _ => sqm (i / 3) * lxm i j),
    if_pos (mem_pairs.mpr ⟨hi, hj⟩)]

theorem foldl_set_length {X β : Type} (L : List X) (idx : X → Nat) (val : X → β) (t0 : List β) :
    (L.foldl (fun t x => t.set (idx x) (val x)) t0).length = t0.length :=
  foldl_inv (fun t => t.length = t0.length) _ L t0 rfl (fun s x _ h => by simpa using h)

theorem foldl_set_get {X β : Type} (L : List X) (idx : X → Nat) (val : X → β) (t0 : List β)
    (s : Nat) (v : β) (hs : s < t0.length) (hv : ∀ x ∈ L, idx x = s → val x = v)
    (hex : ∃ x ∈ L, idx x = s) :
    (L.foldl (fun t x => t.set (idx x) (val x)) t0)[s]? = some v := by
  induction L using List.reverseRecOn with
  | nil => simp at hex
  | append_singleton L x ih =>
    rw [List.foldl_append, List.foldl_cons, List.foldl_nil, List.getElem?_set]
    split
    · next h => rw [foldl_set_length, if_pos (h ▸ hs), hv x (by simp) h]
    · next h =>
      apply ih (fun y hy => hv y (by simp [hy]))
      obtain ⟨y, hy, hh⟩ := hex
      simp at hy
      rcases hy with hy | rfl
      · exact ⟨y, hy, hh⟩
      · exact absurd hh h

theorem foldlM_put {X β : Type} (L : List X) (a b c d : X → Nat) (val : X → β) (t0 : List β)
    (hidx : ∀ x ∈ L, find4 (a x) (b x) (c x) (d x) < t0.length) :
    L.foldlM (fun (t : F4qcm β) x => F4qcm.put t (a x) (b x) (c x) (d x) (val x)) t0 =
      some (L.foldl (fun t x => t.set (find4 (a x) (b x) (c x) (d x)) (val x)) t0) := by
  induction L generalizing t0 with
  | nil => rfl
  | cons x L ih =>
    rw [List.foldlM_cons, F4qcm.put, if_pos (hidx x (by simp))]
    rw [List.foldl_cons]
    exact ih _ (fun y hy => by simpa using hidx y (by simp [hy]))

theorem sym3_perm {β : Type} (G : Nat → Nat → Nat → β) (h1 : ∀ a b c, G a b c = G b a c)
    (h2 : ∀ a b c, G a b c = G a c b) {a b c i j k : Nat} (h : [a, b, c].Perm [i, j, k]) :
    G a b c = G i j k := by
  rw [perm3_iff] at h
  rcases h with ⟨rfl, rfl, rfl⟩ | ⟨rfl, rfl, rfl⟩ | ⟨rfl, rfl, rfl⟩ | ⟨rfl, rfl, rfl⟩ |
    ⟨rfl, rfl, rfl⟩ | ⟨rfl, rfl, rfl⟩
  · rfl
  · exact h2 _ _ _
  · exact h1 _ _ _
  · rw [h2, h1]
  · rw [h1, h2]
  · rw [h1, h2, h1]

/-- A function unchanged by exchanging neighbouring arguments is unchanged by permutations. -/
theorem sym4_perm {β : Type} (G : Nat → Nat → Nat → Nat → β)
    (h1 : ∀ a b c d, G a b c d = G b a c d) (h2 : ∀ a b c d, G a b c d = G a c b d)
    (h3 : ∀ a b c d, G a b c d = G a b d c) {a b c d i j k l : Nat}
    (h : [a, b, c, d].Perm [i, j, k, l]) : G a b c d = G i j k l := by
  have key : ∀ (x : Nat) {a b c i j k : Nat}, [a, b, c].Perm [i, j, k] → G x a b c = G x i j k :=
    fun x => sym3_perm (G x) (fun _ _ _ => h2 _ _ _ _) (fun _ _ _ => h3 _ _ _ _)
  have front : ∀ {a b c d}, G a b c d = G b a c d ∧ G a b c d = G c a b d ∧
      G a b c d = G d a b c := by
    intro a b c d
    refine ⟨h1 _ _ _ _, ?_, ?_⟩
    · rw [h2, h1]
    · rw [h3, h2, h1]
  have hm : i ∈ [a, b, c, d] := h.mem_iff.mpr (by simp)
  simp only [List.mem_cons, List.not_mem_nil, or_false] at hm
  rcases hm with rfl | rfl | rfl | rfl
  · exact key _ ((List.perm_cons _).mp h)
  · rw [front.1]
    exact key _ ((List.perm_cons i).mp ((List.Perm.swap _ _ _).trans h))
  · rw [front.2.1]
    refine key _ ((List.perm_cons i).mp (List.Perm.trans ?_ h))
    exact (List.perm_middle (a := i) (l₁ := [a, b]) (l₂ := [d])).symm
  · rw [front.2.2]
    refine key _ ((List.perm_cons i).mp (List.Perm.trans ?_ h))
    exact (List.perm_middle (a := i) (l₁ := [a, b, c]) (l₂ := [])).symm

end Generic

section Real

open Finset

theorem form2_comm (n : Nat) (h : Nat → Nat → ℝ) (u v : Nat → ℝ) (hs : Symm2 n h) :
    form2 n h u v = form2 n h v u := by
  unfold form2
  rw [sum_comm]
  apply sum_congr rfl; intro x hx
  apply sum_congr rfl; intro y hy
  rw [mem_range] at hx hy
  rw [hs y x hy hx]; ring

theorem form3_swap12 (n : Nat) (h : Nat → Nat → Nat → ℝ) (u v w : Nat → ℝ) (hs : Symm3 n h) :
    form3 n h u v w = form3 n h v u w := by
  unfold form3
  rw [sum_comm]
  apply sum_congr rfl; intro x hx
  apply sum_congr rfl; intro y hy
  apply sum_congr rfl; intro z hz
  rw [mem_range] at hx hy hz
  rw [(hs y x z hy hx hz).1]; ring

theorem form3_swap23 (n : Nat) (h : Nat → Nat → Nat → ℝ) (u v w : Nat → ℝ) (hs : Symm3 n h) :
    form3 n h u v w = form3 n h u w v := by
  unfold form3
  apply sum_congr rfl; intro x hx
  rw [sum_comm]
  apply sum_congr rfl; intro y hy
  apply sum_congr rfl; intro z hz
  rw [mem_range] at hx hy hz
  rw [(hs x z y hx hz hy).2]; ring

theorem form4_swap12 (n : Nat) (h : Nat → Nat → Nat → Nat → ℝ) (u v w s : Nat → ℝ)
    (hs : Symm4 n h) : form4 n h u v w s = form4 n h v u w s := by
  unfold form4
  rw [sum_comm]
  apply sum_congr rfl; intro x hx
  apply sum_congr rfl; intro y hy
  apply sum_congr rfl; intro z hz
  apply sum_congr rfl; intro t ht
  rw [mem_range] at hx hy hz ht
  rw [(hs y x z t hy hx hz ht).1]; ring

theorem form4_swap23 (n : Nat) (h : Nat → Nat → Nat → Nat → ℝ) (u v w s : Nat → ℝ)
    (hs : Symm4 n h) : form4 n h u v w s = form4 n h u w v s := by
  unfold form4
  apply sum_congr rfl; intro x hx
  rw [sum_comm]
  apply sum_congr rfl; intro y hy
  apply sum_congr rfl; intro z hz
  apply sum_congr rfl; intro t ht
  rw [mem_range] at hx hy hz ht
  rw [(hs x z y t hx hz hy ht).2.1]; ring

theorem form4_swap34 (n : Nat) (h : Nat → Nat → Nat → Nat → ℝ) (u v w s : Nat → ℝ)
    (hs : Symm4 n h) : form4 n h u v w s = form4 n h u v s w := by
  unfold form4
  apply sum_congr rfl; intro x hx
  apply sum_congr rfl; intro y hy
  rw [sum_comm]
  apply sum_congr rfl; intro z hz
  apply sum_congr rfl; intro t ht
  rw [mem_range] at hx hy hz ht
  rw [(hs x y t z hx hy ht hz).2.2]; ring

theorem congruence_real (n : Nat) (lx dd : Mat ℝ) (p q : Nat) :
    congruence n lx dd p q = form2 n dd (colOf lx p) (colOf lx q) := by
  simp only [congruence, matMul, transpose, sumTo_real, form2, colOf]
  simp only [sum_mul]
  rw [sum_comm]
  apply sum_congr rfl; intro x _
  apply sum_congr rfl; intro y _
  ring

theorem force3_fold {α : Type} [Arith α] (n : Nat) (lx : Mat α) (f3x : T3 α) (m i j k : Nat) :
    (List.range m).foldl (force3Plane n lx) f3x i j k =
      if i < n ∧ j < n ∧ k < m then congruence n lx (fun a b => f3x a b k * FUNIT3) j i
      else f3x i j k := by
  induction m generalizing i j k with
  | zero => simp
  | succ m ih =>
    rw [List.range_succ, List.foldl_append, List.foldl_cons, List.foldl_nil]
    have e : (fun a b => (List.range m).foldl (force3Plane n lx) f3x a b m * FUNIT3) =
        (fun a b => f3x a b m * FUNIT3) := by
      funext a b
      rw [ih a b m, if_neg (by omega)]
    rw [force3Plane]
    simp only [e]
    by_cases hk : k = m
    · subst hk
      by_cases h : i < n ∧ j < n
      · simp [h.1, h.2]
      · rw [if_neg (by tauto), if_neg (by tauto), ih, if_neg (by tauto)]
    · rw [if_neg (by tauto), ih]
      have : k < m + 1 ↔ k < m := by omega
      simp only [this]

theorem cubic_const : (FACT3 : ℝ) * FUNIT3 = cubicUnit := by
  unfold FACT3 FUNIT3 cubicUnit SQLAM PH CL
  simp only [lit_real]
  push_cast
  norm_num

theorem quartic_const : (FACT4 : ℝ) * FUNIT4 = quarticUnit := by
  unfold FACT4 FUNIT4 quarticUnit ALAM PH CL AVN
  simp only [lit_real, pi_real]
  push_cast
  rw [show (1.0e6 : ℝ) = 1000000 by norm_num, show (4.0e-2 : ℝ) = 0.04 by norm_num]
  ring

theorem form2_congr (n : Nat) (f g : Nat → Nat → ℝ) (u v : Nat → ℝ)
    (h : ∀ c d, c < n → d < n → f c d = g c d) : form2 n f u v = form2 n g u v := by
  unfold form2
  apply sum_congr rfl; intro c hc
  apply sum_congr rfl; intro d hd
  rw [mem_range] at hc hd
  rw [h c d hc hd]

theorem form2_scale (n : Nat) (h : Nat → Nat → ℝ) (s : ℝ) (u v : Nat → ℝ) :
    form2 n (fun a b => h a b * s) u v = s * form2 n h u v := by
  unfold form2
  rw [mul_sum]
  apply sum_congr rfl; intro x _
  rw [mul_sum]
  apply sum_congr rfl; intro y _
  ring

theorem sum_form2_form3 (n : Nat) (h : Nat → Nat → Nat → ℝ) (u v w : Nat → ℝ) :
    ∑ l ∈ range n, form2 n (fun a b => h a b l) u v * w l = form3 n h u v w := by
  unfold form2 form3
  simp only [sum_mul]
  rw [sum_comm]
  apply sum_congr rfl; intro x _
  rw [sum_comm]

theorem form2_form2_form4 (n : Nat) (h : Nat → Nat → Nat → Nat → ℝ) (u v w s : Nat → ℝ) :
    form2 n (fun c d => form2 n (fun a b => h a b c d) u v) w s = form4 n h u v w s := by
  unfold form2 form4
  simp only [sum_mul]
  have : ∀ x, ∑ y ∈ range n, ∑ i ∈ range n, ∑ j ∈ range n, h i j x y * u i * v j * w x * s y =
      ∑ i ∈ range n, ∑ j ∈ range n, ∑ y ∈ range n, h i j x y * u i * v j * w x * s y := by
    intro x
    rw [sum_comm]
    apply sum_congr rfl; intro i _
    rw [sum_comm]
  simp only [this]
  rw [sum_comm]
  apply sum_congr rfl; intro i _
  rw [sum_comm]

/-- The value computed for one entry, for any tensor: the first two mode columns are exchanged. -/
theorem force3Val_real (n : Nat) (f : T3 ℝ) (lx : Mat ℝ) (freq : Vec ℝ) (i j k : Nat)
    (hi : i < n) (hj : j < n) :
    force3Val n ((List.range n).foldl (force3Plane n lx) f) lx freq i j k =
      cubicUnit / Real.sqrt (freq i * freq j * freq k) *
        form3 n f (colOf lx j) (colOf lx i) (colOf lx k) := by
  unfold force3Val
  simp only [sumTo_real, sqrt_real]
  have e : ∀ l ∈ range n, (List.range n).foldl (force3Plane n lx) f i j l * lx l k =
      FUNIT3 * (form2 n (fun a b => f a b l) (colOf lx j) (colOf lx i) * colOf lx k l) := by
    intro l hl
    rw [mem_range] at hl
    rw [force3_fold, if_pos ⟨hi, hj, hl⟩, congruence_real, form2_scale]
    simp only [colOf]; ring
  rw [sum_congr rfl e, ← mul_sum, sum_form2_form3, ← cubic_const]
  ring

theorem force4Half_apply {α : Type} [Arith α] (n : Nat) (f : T4 α) (lx : Mat α) (i j k l : Nat)
    (hi : i < n) (hj : j < n) (hk : k < n) (hl : l < n) :
    force4Half n f lx i j k l = congruence n lx (fun a b => f a b k l * FUNIT4) j i := by
  unfold force4Half
  apply foldl_write_eq (fun t : T4 α => t i j k l) (fun p : Nat × Nat => p = (k, l))
    (fun p => congruence n lx (fun a b => f a b p.1 p.2 * FUNIT4) j i)
  · intro t p
    unfold force4Plane
    obtain ⟨a, b⟩ := p
    simp only [Prod.mk.injEq]
    by_cases h : a = k ∧ b = l
    · simp [hi, hj, h.1, h.2]
    · rw [if_neg (by omega), if_neg h]
  · rintro p - rfl; rfl
  · exact ⟨(k, l), mem_pairs.mpr ⟨hk, hl⟩, rfl⟩

theorem force4Val_real (n : Nat) (f : T4 ℝ) (lx : Mat ℝ) (freq : Vec ℝ) (i j k l : Nat)
    (hi : i < n) (hj : j < n) :
    force4Val n (force4Half n f lx) lx freq i j k l =
      quarticUnit / Real.sqrt (freq i * freq j * freq k * freq l) *
        form4 n f (colOf lx j) (colOf lx i) (colOf lx k) (colOf lx l) := by
  unfold force4Val
  simp only [sqrt_real]
  rw [congruence_real]
  have e : form2 n (fun kabc labc => force4Half n f lx i j kabc labc) (colOf lx k) (colOf lx l) =
      form2 n (fun c d => form2 n (fun a b => f a b c d) (colOf lx j) (colOf lx i) * FUNIT4)
        (colOf lx k) (colOf lx l) := by
    apply form2_congr
    intro c d hc hd
    rw [force4Half_apply n f lx i j c d hi hj hc hd, congruence_real, form2_scale, mul_comm]
  rw [e, form2_scale, form2_form2_form4, ← quartic_const]
  ring

theorem mem_force4Order {n i j k l : Nat} :
    (i, j, k, l) ∈ force4Order n ↔ j ≤ i ∧ i < n ∧ l ≤ k ∧ k < n := by
  simp only [force4Order, List.mem_flatMap, List.mem_range, List.mem_map, Prod.mk.injEq]
  constructor
  · rintro ⟨a, ha, b, hb, c, hc, d, hd, rfl, rfl, rfl, rfl⟩; omega
  · intro h; exact ⟨i, by omega, j, by omega, k, by omega, l, by omega, rfl, rfl, rfl, rfl⟩

theorem find4_top (n : Nat) (hn : 0 < n) : find4 (n - 1) (n - 1) (n - 1) (n - 1) + 1 =
    n * (n + 1) * (n + 2) * (n + 3) / 24 := by
  obtain ⟨m, rfl⟩ : ∃ m, n = m + 1 := ⟨n - 1, by omega⟩
  rw [Nat.add_sub_cancel, find4_sorted le_rfl le_rfl le_rfl]
  have h1 := tw4_tri4 (m + 1)
  have h2 := tri4_succ m
  have h3 := tri3_succ m
  have h4 := tri2_succ m
  have : (m + 1) * (m + 1 + 1) * (m + 1 + 2) * (m + 1 + 3) / 24 = tri4 (m + 1) := by
    rw [← h1]; omega
  rw [this]
  omega

end Real

end Verif
