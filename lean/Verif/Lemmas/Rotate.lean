import Verif.Model.Rotate
import Verif.Spec.Rotate
import Verif.Lemmas.Loop
import Mathlib.Tactic.Ring
import Mathlib.Tactic.Linarith

/-! Auxiliary lemmas for rotations: in-place loops over disjoint blocks, one-index rotations. -/

namespace Verif

/-- In-place loop over distinct keys: the block of key `k0` is changed exactly once, by the
iteration of `k0`. -/
theorem foldl_inplace {X S W : Type} (blk : S → W) (F : W → W) (step : S → X → S) (k0 : X)
    (hne : ∀ t x, x ≠ k0 → blk (step t x) = blk t)
    (heq : ∀ t, blk (step t k0) = F (blk t))
    (L : List X) (hnd : L.Nodup) (hm : k0 ∈ L) (t0 : S) :
    blk (L.foldl step t0) = F (blk t0) := by
  obtain ⟨L1, L2, rfl⟩ := List.append_of_mem hm
  rw [List.foldl_append, List.foldl_cons]
  have hnd' := List.nodup_append.mp hnd
  have h2 : k0 ∉ L2 := (List.nodup_cons.mp hnd'.2.1).1
  have h1 : k0 ∉ L1 := fun h => (hnd'.2.2 k0 h k0 (by simp)) rfl
  rw [foldl_obs_const blk step L2 _ (fun t x hx => hne t x (fun h => h2 (h ▸ hx))), heq,
    foldl_obs_const blk step L1 _ (fun t x hx => hne t x (fun h => h1 (h ▸ hx)))]

theorem mem_pairs {n m i j : Nat} : (i, j) ∈ pairs n m ↔ i < n ∧ j < m := by
  simp [pairs]

theorem mem_triples {n m k a b c : Nat} : (a, b, c) ∈ triples n m k ↔ a < n ∧ b < m ∧ c < k := by
  simp [triples, mem_pairs]

theorem mem_quads {n m k l a b c d : Nat} :
    (a, b, c, d) ∈ quads n m k l ↔ a < n ∧ b < m ∧ c < k ∧ d < l := by
  simp [quads, mem_triples]

theorem nodup_flatMap_tag {β : Type} (n : Nat) (l : List β) (hl : l.Nodup) :
    ((List.range n).flatMap fun i => l.map fun p => (i, p)).Nodup := by
  rw [List.nodup_flatMap]
  refine ⟨fun i _ => hl.map (fun _ _ h => (Prod.mk.inj h).2), ?_⟩
  refine List.nodup_range.imp ?_
  intro a b hab x hx hy
  simp at hx hy
  obtain ⟨p, _, rfl⟩ := hx
  obtain ⟨q, _, h⟩ := hy
  exact hab (Prod.mk.inj h).1.symm

theorem pairs_nodup (n m : Nat) : (pairs n m).Nodup := nodup_flatMap_tag n _ List.nodup_range
theorem triples_nodup (n m k : Nat) : (triples n m k).Nodup :=
  nodup_flatMap_tag n _ (pairs_nodup m k)
theorem quads_nodup (n m k l : Nat) : (quads n m k l).Nodup :=
  nodup_flatMap_tag n _ (triples_nodup m k l)

section
variable {α : Type} [Arith α]

omit [Arith α] in
theorem setBlock2 (r : Mat α) (ia ib : Nat) (v : Mat α) (x y : Nat) :
    (pairs 3 3).foldl (fun r q => Mat.set r (ia + q.1) (ib + q.2) (v q.1 q.2)) r x y =
      if (ia ≤ x ∧ x < ia + 3) ∧ (ib ≤ y ∧ y < ib + 3) then v (x - ia) (y - ib) else r x y := by
  by_cases h : (ia ≤ x ∧ x < ia + 3) ∧ (ib ≤ y ∧ y < ib + 3)
  · rw [if_pos h]
    apply foldl_write_eq (fun r : Mat α => r x y)
      (fun q : Nat × Nat => x = ia + q.1 ∧ y = ib + q.2) (fun q => v q.1 q.2)
    · intro t q; rfl
    · rintro ⟨p, q⟩ _ ⟨rfl, rfl⟩; simp
    · exact ⟨(x - ia, y - ib), mem_pairs.mpr (by omega), by simp; omega⟩
  · rw [if_neg h]
    apply foldl_write_ne (fun r : Mat α => r x y)
      (fun q : Nat × Nat => x = ia + q.1 ∧ y = ib + q.2) (fun q => v q.1 q.2)
    · intro t q; rfl
    · rintro ⟨p, q⟩ hm ⟨rfl, rfl⟩
      rw [mem_pairs] at hm
      omega

theorem rot2nd_apply (natom : Nat) (axes fx : Mat α) (a b p q : Nat) (ha : a < natom)
    (hb : b < natom) (hp : p < 3) (hq : q < 3) :
    rot2nd natom axes fx (3 * a + p) (3 * b + q) =
      sandwich axes (fun ii jj => fx (3 * a + ii) (3 * b + jj)) p q := by
  unfold rot2nd
  apply foldl_write_eq (fun r : Mat α => r (3 * a + p) (3 * b + q))
    (fun k : Nat × Nat => k = (a, b))
    (fun k => sandwich axes (fun ii jj => fx (3 * k.1 + ii) (3 * k.2 + jj)) p q)
  · rintro t ⟨a', b'⟩
    unfold rot2Step
    simp only [setBlock2]
    by_cases h : a' = a ∧ b' = b
    · obtain ⟨rfl, rfl⟩ := h
      rw [if_pos (by omega), if_pos rfl]
      simp
    · rw [if_neg, if_neg]
      · simpa using h
      · intro hc; apply h; omega
  · rintro k _ rfl; rfl
  · exact ⟨(a, b), mem_pairs.mpr ⟨ha, hb⟩, rfl⟩

omit [Arith α] in
theorem setBlock3a (r : T3 α) (ib ic i : Nat) (v : Mat α) (x y z : Nat) :
    (pairs 3 3).foldl (fun r q => T3.set r (ib + q.1) (ic + q.2) i (v q.1 q.2)) r x y z =
      if (ib ≤ x ∧ x < ib + 3) ∧ (ic ≤ y ∧ y < ic + 3) ∧ z = i then v (x - ib) (y - ic)
      else r x y z := by
  by_cases h : (ib ≤ x ∧ x < ib + 3) ∧ (ic ≤ y ∧ y < ic + 3) ∧ z = i
  · rw [if_pos h]
    apply foldl_write_eq (fun r : T3 α => r x y z)
      (fun q : Nat × Nat => x = ib + q.1 ∧ y = ic + q.2 ∧ z = i) (fun q => v q.1 q.2)
    · intro t q; rfl
    · rintro ⟨p, q⟩ _ ⟨rfl, rfl, rfl⟩; simp
    · exact ⟨(x - ib, y - ic), mem_pairs.mpr (by omega), by simp; omega⟩
  · rw [if_neg h]
    apply foldl_write_ne (fun r : T3 α => r x y z)
      (fun q : Nat × Nat => x = ib + q.1 ∧ y = ic + q.2 ∧ z = i) (fun q => v q.1 q.2)
    · intro t q; rfl
    · rintro ⟨p, q⟩ hm ⟨rfl, rfl, rfl⟩
      rw [mem_pairs] at hm
      omega

omit [Arith α] in
theorem setBlock3b (r : T3 α) (j k ia : Nat) (v : Vec α) (x y z : Nat) :
    (List.range 3).foldl (fun r ii => T3.set r j k (ia + ii) (v ii)) r x y z =
      if x = j ∧ y = k ∧ (ia ≤ z ∧ z < ia + 3) then v (z - ia) else r x y z := by
  by_cases h : x = j ∧ y = k ∧ (ia ≤ z ∧ z < ia + 3)
  · rw [if_pos h]
    apply foldl_write_eq (fun r : T3 α => r x y z)
      (fun q : Nat => x = j ∧ y = k ∧ z = ia + q) (fun q => v q)
    · intro t q; rfl
    · rintro q _ ⟨rfl, rfl, rfl⟩; simp
    · exact ⟨z - ia, List.mem_range.mpr (by omega), by omega⟩
  · rw [if_neg h]
    apply foldl_write_ne (fun r : T3 α => r x y z)
      (fun q : Nat => x = j ∧ y = k ∧ z = ia + q) (fun q => v q)
    · intro t q; rfl
    · rintro q hm ⟨rfl, rfl, rfl⟩
      rw [List.mem_range] at hm
      omega

/-- entry of `rot3rd`: first the block rotation of the first two indices, then the rotation of the
third -/
theorem rot3rd_apply (n3n natom : Nat) (hn : n3n = 3 * natom) (axes : Mat α) (f3x : T3 α)
    (a b c p q r : Nat) (ha : a < natom) (hb : b < natom) (hc : c < natom) (hp : p < 3)
    (hq : q < 3) (hr : r < 3) :
    rot3rd n3n natom axes f3x (3 * a + p) (3 * b + q) (3 * c + r) =
      (let s := fun x => sandwich axes (fun ii jj => f3x (3 * a + ii) (3 * b + jj) (3 * c + x)) p q
       s 0 * axes 0 r + s 1 * axes 1 r + s 2 * axes 2 r) := by
  unfold rot3rd
  have h1 : ∀ x, x < 3 →
      (triples n3n natom natom).foldl (rot3Step1 axes f3x) (fun _ _ _ => Arith.lit 0)
        (3 * a + p) (3 * b + q) (3 * c + x) =
      sandwich axes (fun ii jj => f3x (3 * a + ii) (3 * b + jj) (3 * c + x)) p q := by
    intro x hx
    apply foldl_write_eq (fun r : T3 α => r (3 * a + p) (3 * b + q) (3 * c + x))
      (fun k : Nat × Nat × Nat => k = (3 * c + x, a, b))
      (fun k => sandwich axes (fun ii jj => f3x (k.2.1 * 3 + ii) (k.2.2 * 3 + jj) k.1) p q)
    · rintro t ⟨i, a', b'⟩
      unfold rot3Step1
      simp only [setBlock3a]
      by_cases h : i = 3 * c + x ∧ a' = a ∧ b' = b
      · obtain ⟨rfl, rfl, rfl⟩ := h
        rw [if_pos (by omega), if_pos rfl, show 3 * a' + p - a' * 3 = p by omega,
          show 3 * b' + q - b' * 3 = q by omega]
      · rw [if_neg, if_neg]
        · simpa using h
        · intro hc; apply h; omega
    · rintro k _ rfl; simp only [Nat.mul_comm]
    · exact ⟨_, mem_triples.mpr ⟨by omega, ha, hb⟩, rfl⟩
  have h2 := foldl_inplace
    (fun (t : T3 α) (x : Nat) => if x < 3 then t (3 * a + p) (3 * b + q) (3 * c + x) else Arith.lit 0)
    (fun w x => if x < 3 then w 0 * axes 0 x + w 1 * axes 1 x + w 2 * axes 2 x else Arith.lit 0)
    (rot3Step2 axes) (3 * a + p, 3 * b + q, c)
    (by
      rintro t ⟨j, k, i⟩ hne
      funext x
      split
      · unfold rot3Step2
        simp only [setBlock3b]
        rw [if_neg]
        intro hc
        apply hne
        simp; omega
      · rfl)
    (by
      intro t
      funext x
      split
      · unfold rot3Step2
        simp only [setBlock3b]
        rw [if_pos ⟨trivial, trivial, by omega, by omega⟩]
        simp only [Nat.mul_comm c 3, Nat.add_sub_cancel_left]
        simp
      · rfl)
    (triples n3n n3n natom) (triples_nodup _ _ _) (mem_triples.mpr (by omega))
    ((triples n3n natom natom).foldl (rot3Step1 axes f3x) (fun _ _ _ => Arith.lit 0))
  have h3 := congrFun h2 r
  simp only [hr, if_true] at h3
  rw [h3]
  simp only [show (0:Nat) < 3 by omega, show (1:Nat) < 3 by omega, show (2:Nat) < 3 by omega, if_true]
  rw [h1 0 (by omega), h1 1 (by omega), h1 2 (by omega)]

omit [Arith α] in
theorem setBlock4a (r : T4 α) (i j ic id : Nat) (v : Mat α) (x y z w : Nat) :
    (pairs 3 3).foldl (fun r q => T4.set r i j (ic + q.1) (id + q.2) (v q.1 q.2)) r x y z w =
      if x = i ∧ y = j ∧ (ic ≤ z ∧ z < ic + 3) ∧ (id ≤ w ∧ w < id + 3) then v (z - ic) (w - id)
      else r x y z w := by
  by_cases h : x = i ∧ y = j ∧ (ic ≤ z ∧ z < ic + 3) ∧ (id ≤ w ∧ w < id + 3)
  · rw [if_pos h]
    apply foldl_write_eq (fun r : T4 α => r x y z w)
      (fun q : Nat × Nat => x = i ∧ y = j ∧ z = ic + q.1 ∧ w = id + q.2) (fun q => v q.1 q.2)
    · intro t q; rfl
    · rintro ⟨p, q⟩ _ ⟨rfl, rfl, rfl, rfl⟩; simp
    · exact ⟨(z - ic, w - id), mem_pairs.mpr (by omega), by simp; omega⟩
  · rw [if_neg h]
    apply foldl_write_ne (fun r : T4 α => r x y z w)
      (fun q : Nat × Nat => x = i ∧ y = j ∧ z = ic + q.1 ∧ w = id + q.2) (fun q => v q.1 q.2)
    · intro t q; rfl
    · rintro ⟨p, q⟩ hm ⟨rfl, rfl, rfl, rfl⟩
      rw [mem_pairs] at hm
      omega

omit [Arith α] in
theorem setBlock4b (r : T4 α) (ia ib k l : Nat) (v : Mat α) (x y z w : Nat) :
    (pairs 3 3).foldl (fun r q => T4.set r (ia + q.1) (ib + q.2) k l (v q.1 q.2)) r x y z w =
      if (ia ≤ x ∧ x < ia + 3) ∧ (ib ≤ y ∧ y < ib + 3) ∧ z = k ∧ w = l then v (x - ia) (y - ib)
      else r x y z w := by
  by_cases h : (ia ≤ x ∧ x < ia + 3) ∧ (ib ≤ y ∧ y < ib + 3) ∧ z = k ∧ w = l
  · rw [if_pos h]
    apply foldl_write_eq (fun r : T4 α => r x y z w)
      (fun q : Nat × Nat => x = ia + q.1 ∧ y = ib + q.2 ∧ z = k ∧ w = l) (fun q => v q.1 q.2)
    · intro t q; rfl
    · rintro ⟨p, q⟩ _ ⟨rfl, rfl, rfl, rfl⟩; simp
    · exact ⟨(x - ia, y - ib), mem_pairs.mpr (by omega), by simp; omega⟩
  · rw [if_neg h]
    apply foldl_write_ne (fun r : T4 α => r x y z w)
      (fun q : Nat × Nat => x = ia + q.1 ∧ y = ib + q.2 ∧ z = k ∧ w = l) (fun q => v q.1 q.2)
    · intro t q; rfl
    · rintro ⟨p, q⟩ hm ⟨rfl, rfl, rfl, rfl⟩
      rw [mem_pairs] at hm
      omega

/-- entry of `rot4th`: block rotation of the last two indices, then of the first two -/
theorem rot4th_apply (n3n natom : Nat) (hn : n3n = 3 * natom) (axes : Mat α) (f4x : T4 α)
    (a b c d p q r s : Nat) (ha : a < natom) (hb : b < natom) (hc : c < natom) (hd : d < natom)
    (hp : p < 3) (hq : q < 3) (hr : r < 3) (hs : s < 3) (G : Mat α)
    (hG : ∀ x y, x < 3 → y < 3 → G x y =
      sandwich axes (fun kk ll => f4x (3 * a + x) (3 * b + y) (3 * c + kk) (3 * d + ll)) r s)
    (hcongr : ∀ A B : Mat α, (∀ x y, x < 3 → y < 3 → A x y = B x y) →
      ∀ x y, x < 3 → y < 3 → sandwich axes A x y = sandwich axes B x y) :
    rot4th n3n natom axes f4x (3 * a + p) (3 * b + q) (3 * c + r) (3 * d + s) =
      sandwich axes G p q := by
  unfold rot4th
  have h1 : ∀ x y, x < 3 → y < 3 →
      (quads n3n n3n natom natom).foldl (rot4Step1 axes f4x) (fun _ _ _ _ => Arith.lit 0)
        (3 * a + x) (3 * b + y) (3 * c + r) (3 * d + s) = G x y := by
    intro x y hx hy
    rw [hG x y hx hy]
    apply foldl_write_eq (fun t : T4 α => t (3 * a + x) (3 * b + y) (3 * c + r) (3 * d + s))
      (fun k : Nat × Nat × Nat × Nat => k = (3 * a + x, 3 * b + y, c, d))
      (fun k => sandwich axes (fun kk ll => f4x k.1 k.2.1 (k.2.2.1 * 3 + kk) (k.2.2.2 * 3 + ll)) r s)
    · rintro t ⟨i, j, c', d'⟩
      unfold rot4Step1
      simp only [setBlock4a]
      by_cases h : i = 3 * a + x ∧ j = 3 * b + y ∧ c' = c ∧ d' = d
      · obtain ⟨rfl, rfl, rfl, rfl⟩ := h
        rw [if_pos (by omega), if_pos rfl, show 3 * c' + r - c' * 3 = r by omega,
          show 3 * d' + s - d' * 3 = s by omega]
      · rw [if_neg, if_neg]
        · simpa using h
        · intro hc; apply h; omega
    · rintro k _ rfl; simp only [Nat.mul_comm]
    · exact ⟨_, mem_quads.mpr (by omega), rfl⟩
  have h2 := foldl_inplace
    (fun (t : T4 α) (x y : Nat) => if x < 3 ∧ y < 3 then
      t (3 * a + x) (3 * b + y) (3 * c + r) (3 * d + s) else Arith.lit 0)
    (fun w x y => if x < 3 ∧ y < 3 then sandwich axes w x y else Arith.lit 0)
    (rot4Step2 axes) (3 * c + r, 3 * d + s, a, b)
    (by
      rintro t ⟨k, l, i, j⟩ hne
      funext x y
      split
      · unfold rot4Step2
        simp only [setBlock4b]
        rw [if_neg]
        intro hc
        apply hne
        simp; omega
      · rfl)
    (by
      intro t
      funext x y
      split
      · next hxy =>
        unfold rot4Step2
        simp only [setBlock4b]
        rw [if_pos ⟨⟨by omega, by omega⟩, ⟨by omega, by omega⟩, trivial, trivial⟩]
        simp only [Nat.mul_comm a 3, Nat.mul_comm b 3, Nat.add_sub_cancel_left]
        apply hcongr _ _ _ _ _ hxy.1 hxy.2
        intro x y hx hy
        simp [hx, hy]
      · rfl)
    (quads n3n n3n natom natom) (quads_nodup _ _ _ _) (mem_quads.mpr (by omega))
    ((quads n3n n3n natom natom).foldl (rot4Step1 axes f4x) (fun _ _ _ _ => Arith.lit 0))
  have h3 := congrFun (congrFun h2 p) q
  simp only [hp, hq, and_self, if_true] at h3
  rw [h3]
  apply hcongr _ _ _ _ _ hp hq
  intro x y hx hy
  simp only [hx, hy, and_self, if_true]
  exact h1 x y hx hy

end

section Real
open Finset

theorem sum_range_three_mul (n : Nat) (f : Nat → ℝ) :
    ∑ x ∈ range (3 * n), f x = ∑ a ∈ range n, ∑ p ∈ range 3, f (3 * a + p) := by
  induction n with
  | zero => simp
  | succ n ih =>
    rw [show 3 * (n + 1) = 3 * n + 1 + 1 + 1 by ring, sum_range_succ, sum_range_succ,
      sum_range_succ, ih, sum_range_succ]
    simp [sum_range_succ]
    ring

/-- rotation of one index -/
noncomputable def rotV (axes : Nat → Nat → ℝ) (f : Nat → ℝ) (x : Nat) : ℝ :=
  ∑ p ∈ range 3, axes p (x % 3) * f (3 * (x / 3) + p)

theorem rotV_congr (axes : Nat → Nat → ℝ) (n : Nat) (f g : Nat → ℝ)
    (h : ∀ x, x < 3 * n → f x = g x) (x : Nat) (hx : x < 3 * n) : rotV axes f x = rotV axes g x := by
  unfold rotV
  apply sum_congr rfl
  intro p hp
  rw [mem_range] at hp
  rw [h _ (by omega)]

theorem rotV_swap (axes : Nat → Nat → ℝ) (g : Nat → Nat → ℝ) (x y : Nat) :
    rotV axes (fun a => rotV axes (fun b => g a b) y) x =
      rotV axes (fun b => rotV axes (fun a => g a b) x) y := by
  unfold rotV
  simp only [mul_sum]
  rw [sum_comm]
  apply sum_congr rfl; intro q _
  apply sum_congr rfl; intro p _
  ring

theorem sum_rotV (axes : Nat → Nat → ℝ) (n : Nat) (f u : Nat → ℝ) :
    ∑ x ∈ range (3 * n), rotV axes f x * u x = ∑ x ∈ range (3 * n), f x * applyAxes axes u x := by
  rw [sum_range_three_mul, sum_range_three_mul]
  apply sum_congr rfl; intro a _
  have h : ∀ p, p < 3 → (3 * a + p) % 3 = p ∧ (3 * a + p) / 3 = a := by intro p hp; omega
  unfold rotV applyAxes
  simp only [sum_range_succ, sum_range_zero, zero_add, (h 0 (by omega)).1, (h 0 (by omega)).2,
    (h 1 (by omega)).1, (h 1 (by omega)).2, (h 2 (by omega)).1, (h 2 (by omega)).2]
  ring

theorem rotV_inv (axes : Nat → Nat → ℝ) (ho : Orthogonal3 axes) (f : Nat → ℝ) (x : Nat) :
    rotV (fun i j => axes j i) (rotV axes f) x = f x := by
  have h : ∀ p, p < 3 → (3 * (x / 3) + p) % 3 = p ∧ (3 * (x / 3) + p) / 3 = x / 3 := by
    intro p hp; omega
  have h00 := ho.2 (x % 3) 0 (by omega) (by omega)
  have h01 := ho.2 (x % 3) 1 (by omega) (by omega)
  have h02 := ho.2 (x % 3) 2 (by omega) (by omega)
  simp only [sum_range_succ, sum_range_zero, zero_add] at h00 h01 h02
  unfold rotV
  simp only [sum_range_succ, sum_range_zero, zero_add, (h 0 (by omega)).1, (h 0 (by omega)).2,
    (h 1 (by omega)).1, (h 1 (by omega)).2, (h 2 (by omega)).1, (h 2 (by omega)).2]
  have e : f x = (if x % 3 = 0 then 1 else 0) * f (3 * (x / 3) + 0) +
      (if x % 3 = 1 then 1 else 0) * f (3 * (x / 3) + 1) +
      (if x % 3 = 2 then 1 else 0) * f (3 * (x / 3) + 2) := by
    have hx : x % 3 = 0 ∨ x % 3 = 1 ∨ x % 3 = 2 := by omega
    have hd := Nat.div_add_mod x 3
    rcases hx with h | h | h <;> rw [h] at hd ⊢ <;> simp [hd]
  rw [e, ← h00, ← h01, ← h02]
  simp only [add_zero]
  ring

theorem rotV_id (f : Nat → ℝ) (x : Nat) :
    rotV (fun i j => if i = j then 1 else 0) f x = f x := by
  unfold rotV
  have hx : x % 3 = 0 ∨ x % 3 = 1 ∨ x % 3 = 2 := by omega
  have hd := Nat.div_add_mod x 3
  rcases hx with h | h | h <;> rw [h] at hd ⊢ <;>
    simp <;> congr 1

theorem sandwich_real (axes a : Mat ℝ) (p q : Nat) :
    sandwich axes a p q = ∑ k ∈ range 3, (∑ l ∈ range 3, axes l p * a l k) * axes k q := by
  simp only [sandwich, matMul, transpose, sumTo_real]

theorem sandwich_rotV (axes a : Mat ℝ) (x y : Nat) (f : Nat → Nat → ℝ)
    (h : ∀ p q, p < 3 → q < 3 → a p q = f (3 * (x / 3) + p) (3 * (y / 3) + q)) :
    sandwich axes a (x % 3) (y % 3) = rotV axes (fun x' => rotV axes (fun y' => f x' y') y) x := by
  rw [sandwich_real]
  unfold rotV
  simp only [sum_range_succ, sum_range_zero, zero_add]
  rw [h 0 0 (by omega) (by omega), h 0 1 (by omega) (by omega), h 0 2 (by omega) (by omega),
    h 1 0 (by omega) (by omega), h 1 1 (by omega) (by omega), h 1 2 (by omega) (by omega),
    h 2 0 (by omega) (by omega), h 2 1 (by omega) (by omega), h 2 2 (by omega) (by omega)]
  ring

theorem sandwich_congr (axes : Mat ℝ) (A B : Mat ℝ)
    (h : ∀ x y, x < 3 → y < 3 → A x y = B x y) (x y : Nat) :
    sandwich axes A x y = sandwich axes B x y := by
  rw [sandwich_real, sandwich_real]
  apply sum_congr rfl; intro k hk
  congr 1
  apply sum_congr rfl; intro l hl
  rw [mem_range] at hk hl
  rw [h l k hl hk]

theorem rot2nd_real (natom : Nat) (axes fx : Mat ℝ) (x y : Nat) (hx : x < 3 * natom)
    (hy : y < 3 * natom) :
    rot2nd natom axes fx x y = rotV axes (fun x' => rotV axes (fun y' => fx x' y') y) x := by
  have h := rot2nd_apply natom axes fx (x / 3) (y / 3) (x % 3) (y % 3) (by omega) (by omega)
    (by omega) (by omega)
  rw [Nat.div_add_mod, Nat.div_add_mod] at h
  rw [h]
  exact sandwich_rotV axes _ x y fx (fun p q _ _ => rfl)

theorem rot3rd_real (natom : Nat) (axes : Mat ℝ) (f : T3 ℝ) (x y z : Nat) (hx : x < 3 * natom)
    (hy : y < 3 * natom) (hz : z < 3 * natom) :
    rot3rd (3 * natom) natom axes f x y z =
      rotV axes (fun x' => rotV axes (fun y' => rotV axes (fun z' => f x' y' z') z) y) x := by
  have h := rot3rd_apply (3 * natom) natom rfl axes f (x / 3) (y / 3) (z / 3) (x % 3) (y % 3)
    (z % 3) (by omega) (by omega) (by omega) (by omega) (by omega) (by omega)
  rw [Nat.div_add_mod, Nat.div_add_mod, Nat.div_add_mod] at h
  rw [h]
  have e : ∀ r, sandwich axes (fun ii jj => f (3 * (x / 3) + ii) (3 * (y / 3) + jj) (3 * (z / 3) + r))
      (x % 3) (y % 3) =
      rotV axes (fun x' => rotV axes (fun y' => f x' y' (3 * (z / 3) + r)) y) x := fun r =>
    sandwich_rotV axes _ x y (fun x' y' => f x' y' (3 * (z / 3) + r)) (fun p q _ _ => rfl)
  simp only [e]
  unfold rotV
  simp only [sum_range_succ, sum_range_zero, zero_add]
  ring

theorem rot4th_real (natom : Nat) (axes : Mat ℝ) (f : T4 ℝ) (x y z w : Nat) (hx : x < 3 * natom)
    (hy : y < 3 * natom) (hz : z < 3 * natom) (hw : w < 3 * natom) :
    rot4th (3 * natom) natom axes f x y z w =
      rotV axes (fun x' => rotV axes (fun y' => rotV axes (fun z' =>
        rotV axes (fun w' => f x' y' z' w') w) z) y) x := by
  have h := rot4th_apply (3 * natom) natom rfl axes f (x / 3) (y / 3) (z / 3) (w / 3) (x % 3) (y % 3)
    (z % 3) (w % 3) (by omega) (by omega) (by omega) (by omega) (by omega) (by omega) (by omega)
    (by omega) (fun p q => rotV axes (fun z' =>
        rotV axes (fun w' => f (3 * (x / 3) + p) (3 * (y / 3) + q) z' w') w) z)
    (fun p q _ _ => (sandwich_rotV axes _ z w
      (fun z' w' => f (3 * (x / 3) + p) (3 * (y / 3) + q) z' w') (fun _ _ _ _ => rfl)).symm)
    (fun A B h x y _ _ => sandwich_congr axes A B h x y)
  rw [Nat.div_add_mod, Nat.div_add_mod, Nat.div_add_mod, Nat.div_add_mod] at h
  rw [h]
  exact sandwich_rotV axes _ x y (fun x' y' => rotV axes (fun z' =>
        rotV axes (fun w' => f x' y' z' w') w) z) (fun _ _ _ _ => rfl)

theorem rotV_swap3 (axes : Nat → Nat → ℝ) (g : Nat → Nat → Nat → ℝ) (x y z : Nat) :
    rotV axes (fun a => rotV axes (fun b => rotV axes (fun c => g a b c) z) y) x =
      rotV axes (fun c => rotV axes (fun b => rotV axes (fun a => g a b c) x) y) z := by
  rw [rotV_swap axes (fun a b => rotV axes (fun c => g a b c) z)]
  rw [show (fun b => rotV axes (fun a => rotV axes (fun c => g a b c) z) x) =
    (fun b => rotV axes (fun c => rotV axes (fun a => g a b c) x) z) from
    funext fun b => rotV_swap axes (fun a c => g a b c) x z]
  rw [rotV_swap axes (fun b c => rotV axes (fun a => g a b c) x)]

theorem rotV_swap4 (axes : Nat → Nat → ℝ) (g : Nat → Nat → Nat → Nat → ℝ) (x y z t : Nat) :
    rotV axes (fun a => rotV axes (fun b => rotV axes (fun c => rotV axes (fun d => g a b c d) t)
      z) y) x =
      rotV axes (fun d => rotV axes (fun c => rotV axes (fun b => rotV axes (fun a => g a b c d)
      x) y) z) t := by
  rw [rotV_swap3 axes (fun a b c => rotV axes (fun d => g a b c d) t)]
  have e : ∀ c, rotV axes (fun b => rotV axes (fun a => rotV axes (fun d => g a b c d) t) x) y =
      rotV axes (fun d => rotV axes (fun b => rotV axes (fun a => g a b c d) x) y) t := by
    intro c
    rw [← rotV_swap axes (fun b d => rotV axes (fun a => g a b c d) x) y t]
    congr 1
    funext b
    exact rotV_swap axes (fun a d => g a b c d) x t
  simp only [e]
  rw [rotV_swap axes (fun c d => rotV axes (fun b => rotV axes (fun a => g a b c d) x) y)]

theorem rotV_sum (axes : Nat → Nat → ℝ) (s : Finset Nat) (g : Nat → Nat → ℝ) (w : Nat → ℝ)
    (x : Nat) : rotV axes (fun a => ∑ y ∈ s, g a y * w y) x =
      ∑ y ∈ s, rotV axes (fun a => g a y) x * w y := by
  unfold rotV
  simp only [mul_sum, sum_mul]
  rw [sum_comm]
  apply sum_congr rfl; intro y _
  apply sum_congr rfl; intro p _
  ring

theorem rotV_form2 (axes : Nat → Nat → ℝ) (n : Nat) (f : Nat → Nat → ℝ) (u v : Nat → ℝ) :
    ∑ x ∈ range (3 * n), ∑ y ∈ range (3 * n),
      rotV axes (fun x' => rotV axes (fun y' => f x' y') y) x * u x * v y =
    ∑ x ∈ range (3 * n), ∑ y ∈ range (3 * n), f x y * applyAxes axes u x * applyAxes axes v y := by
  calc _ = ∑ x ∈ range (3 * n),
      rotV axes (fun x' => ∑ y ∈ range (3 * n), f x' y * applyAxes axes v y) x * u x := by
        apply sum_congr rfl; intro x _
        have h : ∀ x', ∑ y ∈ range (3 * n), f x' y * applyAxes axes v y =
            ∑ y ∈ range (3 * n), rotV axes (f x') y * v y := fun x' =>
          (sum_rotV axes n (f x') v).symm
        simp only [h]
        rw [rotV_sum axes _ (fun a y => rotV axes (f a) y), sum_mul]
        apply sum_congr rfl; intro y _; ring
    _ = _ := by
        rw [sum_rotV]
        apply sum_congr rfl; intro x _
        rw [sum_mul]
        apply sum_congr rfl; intro y _
        ring

theorem rotV_form3 (axes : Nat → Nat → ℝ) (n : Nat) (f : Nat → Nat → Nat → ℝ)
    (u v w : Nat → ℝ) :
    ∑ x ∈ range (3 * n), ∑ y ∈ range (3 * n), ∑ z ∈ range (3 * n),
      rotV axes (fun x' => rotV axes (fun y' => rotV axes (fun z' => f x' y' z') z) y) x *
        u x * v y * w z =
    ∑ x ∈ range (3 * n), ∑ y ∈ range (3 * n), ∑ z ∈ range (3 * n),
      f x y z * applyAxes axes u x * applyAxes axes v y * applyAxes axes w z := by
  have e := rotV_form2 axes n (fun x y => ∑ z ∈ range (3 * n), f x y z * applyAxes axes w z) u v
  have l : ∀ x y, rotV axes (fun x' => rotV axes (fun y' =>
      ∑ z ∈ range (3 * n), f x' y' z * applyAxes axes w z) y) x =
      ∑ z ∈ range (3 * n),
        rotV axes (fun x' => rotV axes (fun y' => rotV axes (fun z' => f x' y' z') z) y) x * w z := by
    intro x y
    have h : ∀ x' y', ∑ z ∈ range (3 * n), f x' y' z * applyAxes axes w z =
        ∑ z ∈ range (3 * n), rotV axes (f x' y') z * w z := fun x' y' =>
      (sum_rotV axes n (f x' y') w).symm
    simp only [h]
    have h2 : ∀ x', rotV axes (fun y' => ∑ z ∈ range (3 * n), rotV axes (f x' y') z * w z) y =
        ∑ z ∈ range (3 * n), rotV axes (fun y' => rotV axes (f x' y') z) y * w z := fun x' =>
      rotV_sum axes _ (fun y' z => rotV axes (f x' y') z) w y
    simp only [h2]
    rw [rotV_sum axes _ (fun x' z => rotV axes (fun y' => rotV axes (f x' y') z) y)]
  simp only [l] at e
  simp only [sum_mul] at e
  calc _ = _ := by
        apply sum_congr rfl; intro x _
        apply sum_congr rfl; intro y _
        apply sum_congr rfl; intro z _
        ring
    _ = _ := e
    _ = _ := by
        apply sum_congr rfl; intro x _
        apply sum_congr rfl; intro y _
        apply sum_congr rfl; intro z _
        ring

theorem rotV_form4 (axes : Nat → Nat → ℝ) (n : Nat) (f : Nat → Nat → Nat → Nat → ℝ)
    (u v w s : Nat → ℝ) :
    ∑ x ∈ range (3 * n), ∑ y ∈ range (3 * n), ∑ z ∈ range (3 * n), ∑ t ∈ range (3 * n),
      rotV axes (fun x' => rotV axes (fun y' => rotV axes (fun z' =>
        rotV axes (fun t' => f x' y' z' t') t) z) y) x * u x * v y * w z * s t =
    ∑ x ∈ range (3 * n), ∑ y ∈ range (3 * n), ∑ z ∈ range (3 * n), ∑ t ∈ range (3 * n),
      f x y z t * applyAxes axes u x * applyAxes axes v y * applyAxes axes w z *
        applyAxes axes s t := by
  have e := rotV_form3 axes n
    (fun x y z => ∑ t ∈ range (3 * n), f x y z t * applyAxes axes s t) u v w
  have l : ∀ x y z, rotV axes (fun x' => rotV axes (fun y' => rotV axes (fun z' =>
      ∑ t ∈ range (3 * n), f x' y' z' t * applyAxes axes s t) z) y) x =
      ∑ t ∈ range (3 * n),
        rotV axes (fun x' => rotV axes (fun y' => rotV axes (fun z' =>
          rotV axes (fun t' => f x' y' z' t') t) z) y) x * s t := by
    intro x y z
    have h : ∀ x' y' z', ∑ t ∈ range (3 * n), f x' y' z' t * applyAxes axes s t =
        ∑ t ∈ range (3 * n), rotV axes (f x' y' z') t * s t := fun x' y' z' =>
      (sum_rotV axes n (f x' y' z') s).symm
    simp only [h]
    have h3 : ∀ x' y', rotV axes (fun z' => ∑ t ∈ range (3 * n),
        rotV axes (f x' y' z') t * s t) z =
        ∑ t ∈ range (3 * n), rotV axes (fun z' => rotV axes (f x' y' z') t) z * s t :=
      fun x' y' => rotV_sum axes _ (fun z' t => rotV axes (f x' y' z') t) s z
    simp only [h3]
    have h2 : ∀ x', rotV axes (fun y' => ∑ t ∈ range (3 * n),
        rotV axes (fun z' => rotV axes (f x' y' z') t) z * s t) y =
        ∑ t ∈ range (3 * n),
          rotV axes (fun y' => rotV axes (fun z' => rotV axes (f x' y' z') t) z) y * s t :=
      fun x' => rotV_sum axes _ (fun y' t => rotV axes (fun z' => rotV axes (f x' y' z') t) z) s y
    simp only [h2]
    rw [rotV_sum axes _ (fun x' t =>
      rotV axes (fun y' => rotV axes (fun z' => rotV axes (f x' y' z') t) z) y)]
  simp only [l] at e
  simp only [sum_mul] at e
  calc _ = _ := by
        apply sum_congr rfl; intro x _
        apply sum_congr rfl; intro y _
        apply sum_congr rfl; intro z _
        apply sum_congr rfl; intro t _
        ring
    _ = _ := e
    _ = _ := by
        apply sum_congr rfl; intro x _
        apply sum_congr rfl; intro y _
        apply sum_congr rfl; intro z _
        apply sum_congr rfl; intro t _
        ring

end Real

end Verif
