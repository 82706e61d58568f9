import Verif.Lemmas.ZeroPoint
import Verif.Lemmas.PerturbList
import Verif.Lemmas.ThreefoldX

/-!
# The ground-state energy of a molecule with a threefold axis

Helpers for C109.
-/

namespace Verif

open Finset Osc

variable {N : Nat} {one : List Nat} {two : List (Nat × Nat)} {s p : Nat → ℝ} {ax : Nat} {w : Nat → ℝ}
  {φ : Nat → Nat → Nat → ℝ} {ψ : Nat → Nat → Nat → Nat → ℝ} {ζ : Nat → Nat → Nat → ℝ} {B : Nat → ℝ}

/-- The Coriolis term of a pair of modes. -/
noncomputable def corio (B : Nat → ℝ) (ζ : Nat → Nat → Nat → ℝ) (k l : Nat) : ℝ := ∑ a ∈ range 3, B a * ζ k l a ^ 2

/-- The second-order energy of the ground state. -/
theorem ground_energy (h3 : Symm3 N φ) (h4 : Symm4 N ψ) (hz : ∀ a k l, k < N → l < N → ζ k l a = -ζ l k a)
    (hp : ∀ i < N, 0 < w i) :
    -second1 w φ (toInt fun _ : Fin N => 0) + expect2 w ψ ζ B (toInt fun _ : Fin N => 0) =
    -(1 / 48) * ∑ a ∈ range N, ∑ b ∈ range N, ∑ c ∈ range N, φ a b c ^ 2 / (w a + w b + w c)
      - 1 / 32 * ∑ m ∈ range N, (∑ i ∈ range N, φ i i m) ^ 2 / w m
      + 1 / 32 * ∑ i ∈ range N, ∑ j ∈ range N, ψ i i j j
      + 1 / 8 * ∑ k ∈ range N, ∑ l ∈ range N, (w k / w l + w l / w k) * corio B ζ k l
      - 1 / 2 * ∑ k ∈ range N, ∑ l ∈ range k, corio B ζ k l := by
  have hφ : Sy3 fun i j k : Fin N => φ i j k := fun i j k => h3 i j k i.2 j.2 k.2
  have hψ : Sy4 fun i j k l : Fin N => ψ i j k l := fun i j k l => h4 i j k l i.2 j.2 k.2 l.2
  have hζ : ∀ a (k l : Fin N), ζ k l a = -ζ l k a := fun a k l => hz a k l k.2 l.2
  have n0 : (toInt fun _ : Fin N => 0) = 0 := by funext i; simp [toInt]
  have hw : ∀ i : Fin N, 0 < w i := fun i => hp i i.2
  have e1 : -second1 w φ (toInt fun _ : Fin N => 0) = ground3 (fun i : Fin N => w i) fun i j k : Fin N => φ i j k := by
    rw [n0, second1, res_inv]
    exact ground_value hφ (inv_inv _ resRel_false) fun j => (hw j).ne'
  have r1 : ∀ f : Nat → ℝ, ∑ i : Fin N, f i = ∑ i ∈ range N, f i := fun f => Fin.sum_univ_eq_sum_range f N
  have e2 : qua (fun i j k l : Fin N => ψ i j k l) (Osc.one (0 : Fin N → ℤ)) 0 =
      1 / 32 * ∑ i : Fin N, ∑ j : Fin N, ψ i i j j := by
    rw [qua_value hψ, sum2_sort fun i j : Fin N => ψ i i j j, mul_add, mul_sum, ← D2_smul]
    refine congrArg₂ (· + ·) (sum_congr rfl fun i _ => ?_) (D2_congr fun i j _ => ?_)
    · simp only [Pi.zero_apply, Int.cast_zero]; ring
    · simp only [Pi.zero_apply, Int.cast_zero]; ring
  have c0 : ∀ k : Fin N, corio B ζ k k = 0 := fun k => by
    unfold corio
    refine sum_eq_zero fun a _ => ?_
    have := hζ a k k
    rw [show ζ k k a = 0 by linarith]; ring
  have cs : ∀ k l : Fin N, corio B ζ k l = corio B ζ l k := fun k l => by
    unfold corio
    exact sum_congr rfl fun a _ => by rw [hζ a k l]; ring
  have e3 : ∑ a ∈ range 3, B a * ang (fun i : Fin N => w i) (fun k l => ζ k l a)
      (ang (fun i : Fin N => w i) (fun k l => ζ k l a) (Osc.one (0 : Fin N → ℤ))) 0 =
      -(1 / 8 * D2 (fun k l : Fin N => (w k / w l + w l / w k) * corio B ζ k l)) + 1 / 4 * D2 fun k l : Fin N => corio B ζ k l := by
    have e : ∀ a, B a * ang (fun i : Fin N => w i) (fun k l => ζ k l a)
        (ang (fun i : Fin N => w i) (fun k l => ζ k l a) (Osc.one (0 : Fin N → ℤ))) 0 =
        D2 fun k l : Fin N => -(B a * (ζ k l a ^ 2 * (w l / w k * (1 / 4) - 1 / 4))) := by
      intro a
      rw [ang_value hw (hζ a), ← neg_one_mul (D2 _), ← mul_assoc, ← D2_smul]
      exact D2_congr fun k l _ => by simp only [Pi.zero_apply, Int.cast_zero]; ring
    simp only [e, corio, sum_range_succ, sum_range_zero, zero_add]
    rw [← D2_add, ← D2_add, ← D2_smul, ← D2_smul, ← neg_one_mul (D2 _), ← D2_smul, ← D2_add]
    refine D2_eq fun k l _ => ?_
    rw [hζ 0 l k, hζ 1 l k, hζ 2 l k]
    ring
  have e4 : D2 (fun k l : Fin N => (w k / w l + w l / w k) * corio B ζ k l) =
      ∑ k : Fin N, ∑ l : Fin N, (w k / w l + w l / w k) * corio B ζ k l := by
    rw [sum2_sort fun k l : Fin N => (w k / w l + w l / w k) * corio B ζ k l]
    simp [c0]
  have e5 : D2 (fun k l : Fin N => corio B ζ k l) = 2 * ∑ k ∈ range N, ∑ l ∈ range k, corio B ζ k l := by
    rw [D2_order _ cs, order_range fun k l => corio B ζ k l]
  rw [e1, expect2, n0, e2, e3, e4, e5, ground3]
  have r2 : ∀ f : Nat → Nat → ℝ, ∑ a : Fin N, ∑ b : Fin N, f a b = ∑ a ∈ range N, ∑ b ∈ range N, f a b := fun f => by
    rw [← r1 fun a => ∑ b ∈ range N, f a b]
    exact sum_congr rfl fun a _ => r1 (f a)
  have r3 : ∀ f : Nat → Nat → Nat → ℝ, ∑ a : Fin N, ∑ b : Fin N, ∑ c : Fin N, f a b c =
      ∑ a ∈ range N, ∑ b ∈ range N, ∑ c ∈ range N, f a b c := fun f => by
    rw [← r1 fun a => ∑ b ∈ range N, ∑ c ∈ range N, f a b c]
    exact sum_congr rfl fun a _ => r2 (f a)
  have r1' : ∑ m : Fin N, (∑ i : Fin N, φ i i m) ^ 2 / w m = ∑ m ∈ range N, (∑ i ∈ range N, φ i i m) ^ 2 / w m := by
    rw [← r1 fun m => (∑ i ∈ range N, φ i i m) ^ 2 / w m]
    exact sum_congr rfl fun m _ => by rw [r1 fun i => φ i i m]
  rw [r3 fun a b c => φ a b c ^ 2 / (w a + w b + w c), r1', r2 fun i j => ψ i i j j,
    r2 fun k l => (w k / w l + w l / w k) * corio B ζ k l]
  ring


/-! ### Sums over lists of modes -/

theorem lsum_fin {X : Type} [DecidableEq X] {L : List X} (hL : L.Nodup) (f : X → ℝ) : (L.map f).sum = ∑ x : L.toFinset, f x := by
  rw [← List.sum_toFinset f hL, Finset.sum_coe_sort L.toFinset f]

theorem lsum_fst {X : Type} [DecidableEq X] {L : List (Nat × X)} (hL : L.Nodup) (f : Nat → ℝ) :
    ((L.map (·.1)).map f).sum = ∑ t : L.toFinset, f t.1.1 := by
  rw [List.map_map, lsum_fin hL]
  rfl

theorem lsum_filter (L : List Nat) (q : Nat → Bool) (f : Nat → ℝ) :
    ((L.filter q).map f).sum = (L.map fun x => if q x then f x else 0).sum := by
  induction L with
  | nil => rfl
  | cons a L ih => by_cases h : q a <;> simp [h, ih]

theorem four4_eq (k l m : Nat) : fourFracs noneOut w k l m = four4 (w k) (w l) (w m) := by
  unfold fourFracs four4
  simp only [frac_false]

theorem four1_eq (k l m : Nat) : gFracs noneOut w k l m = four1 (w k) (w l) (w m) := by
  unfold gFracs four1
  simp only [frac_false]

/-- The zero-point constant of the non-degenerate modes. -/
theorem e0_fin (h3 : Symm3 N φ) {L : List Nat} (hL : L.Nodup) (hN : ∀ k ∈ L, k < N) :
    e0Spec noneOut L w φ ψ = ∑ k : L.toFinset, ψ k k k k / 64 + (-(7 / 576) * ∑ k : L.toFinset, φ k k k ^ 2 / w k
      + D2 (fun a b : L.toFinset => 3 * φ a a b ^ 2 / 128 * (1 / (2 * w a - w b) - 1 / (2 * w a + w b)))
      + 1 / 6 * D3 fun a b c : L.toFinset => φ a b c ^ 2 / 32 * four1 (w a) (w b) (w c)) := by
  have lt : ∀ k : L.toFinset, (k : Nat) < N := fun k => hN k (List.mem_toFinset.1 k.2)
  unfold e0Spec
  simp only [lsum_filter]
  simp only [lsum_fin hL]
  have t2 : ∑ a : L.toFinset, ∑ b : L.toFinset, (if decide ((a : Nat) ≠ b) = true then
        e0kklSpec (noneOut a a b) (φ a a b) (w a) (w b) else 0) =
      D2 fun a b : L.toFinset => 3 * φ a a b ^ 2 / 128 * (1 / (2 * w a - w b) - 1 / (2 * w a + w b)) := by
    unfold D2
    refine sum_congr rfl fun a _ => sum_congr rfl fun b _ => ?_
    simp only [e0kklSpec, frac_false, decide_eq_true_eq, ne_eq, Subtype.ext_iff]
  have t3 : ∑ a : L.toFinset, ∑ b : L.toFinset, (if decide ((b : Nat) < a) = true then
        ∑ c : L.toFinset, (if decide ((c : Nat) < b) = true then
          e0klmSpec (noneOut b c a) (noneOut a c b) (noneOut a b c) (φ a b c) (w a) (w b) (w c) else 0) else 0) =
      1 / 6 * D3 fun a b c : L.toFinset => φ a b c ^ 2 / 32 * four1 (w a) (w b) (w c) := by
    rw [D3_key (fun a : L.toFinset => (a : Nat)) Subtype.val_injective, ← mul_assoc, show (1 / 6 : ℝ) * 6 = 1 by norm_num, one_mul]
    · refine sum_congr rfl fun a _ => sum_congr rfl fun b _ => ?_
      simp only [decide_eq_true_eq]
      by_cases hb : (b : Nat) < a
      · simp only [hb, true_and, if_true]
        refine sum_congr rfl fun c _ => ?_
        simp only [e0klmSpec, frac_false, four1]
        split
        · ring
        · rfl
      · simp [hb]
    · intro a b c
      have e := h3 a b c (lt a) (lt b) (lt c)
      constructor
      · rw [e.1]
        unfold four1
        rw [show w b + w a + w c = w a + w b + w c by ring, show w b - w a + w c = -w a + w b + w c by ring,
          show w b + w a - w c = w a + w b - w c by ring, show -w b + w a + w c = w a - w b + w c by ring]
        ring
      · rw [e.2]
        unfold four1
        rw [show w a + w c + w b = w a + w b + w c by ring, show w a - w c + w b = w a + w b - w c by ring,
          show w a + w c - w b = w a - w b + w c by ring, show -w a + w c + w b = -w a + w b + w c by ring]
        ring
  rw [t2, t3]
  ring

theorem e2_fin (d1 : one.Nodup) (d2 : two.Nodup) : e2Spec noneOut one (two.map (·.1)) w φ ψ =
    ∑ t : two.toFinset, ψ t.1.1 t.1.1 t.1.1 t.1.1 / 48 + (∑ t : two.toFinset, 11 * φ t.1.1 t.1.1 t.1.1 ^ 2 / (144 * w t.1.1)
      + ∑ t : two.toFinset, ∑ l : one.toFinset, φ t.1.1 t.1.1 l ^ 2 / 32 * (1 / (2 * w t.1.1 - w l) - 1 / (2 * w t.1.1 + w l))) := by
  unfold e2Spec
  simp only [frac_false]
  simp only [lsum_fin d1, lsum_fst d2]
  ring

theorem e3_fin (h3 : Symm3 N φ) (d1 : one.Nodup) (d2 : (two.map (·.1)).Nodup) (h1 : ∀ k ∈ one, k < N) (h2 : ∀ t ∈ two, t.1 < N) :
    e3Spec noneOut one (two.map (·.1)) w φ =
      D2 (fun t u : two.toFinset => φ t.1.1 t.1.1 u.1.1 ^ 2 / 16 * (2 / w u.1.1 +
        3 / 2 * (1 / (2 * w t.1.1 - w u.1.1) - 1 / (2 * w t.1.1 + w u.1.1))))
      + 1 / 2 * D2 (fun t u : two.toFinset => ∑ m : one.toFinset, φ t.1.1 u.1.1 m ^ 2 / 16 * four1 (w t.1.1) (w u.1.1) (w m))
      + 1 / 6 * D3 (fun t u v : two.toFinset => φ t.1.1 u.1.1 v.1.1 ^ 2 / 8 * four1 (w t.1.1) (w u.1.1) (w v.1.1)) := by
  have lt : ∀ t : two.toFinset, t.1.1 < N := fun t => h2 t (List.mem_toFinset.1 t.2)
  have lo : ∀ k : one.toFinset, (k : Nat) < N := fun k => h1 k (List.mem_toFinset.1 k.2)
  have d2' : two.Nodup := List.Nodup.of_map _ d2
  have inj : Function.Injective fun t : two.toFinset => t.1.1 := fun t u e => Subtype.ext
    (List.inj_on_of_nodup_map d2 (List.mem_toFinset.1 t.2) (List.mem_toFinset.1 u.2) e)
  have sw : ∀ x y z : ℝ, four1 x y z = four1 y x z ∧ four1 x y z = four1 x z y := fun x y z => by
    unfold four1
    rw [show y + x + z = x + y + z by ring, show y - x + z = -x + y + z by ring,
      show y + x - z = x + y - z by ring, show -y + x + z = x - y + z by ring,
      show x + z + y = x + y + z by ring, show x - z + y = x + y - z by ring,
      show x + z - y = x - y + z by ring, show -x + z + y = -x + y + z by ring]
    constructor <;> ring
  unfold e3Spec
  simp only [lsum_filter, frac_false, four1_eq]
  simp only [lsum_fin d1, lsum_fst d2']
  refine congrArg₂ (· + ·) (congrArg₂ (· + ·) ?_ ?_) ?_
  · unfold D2
    refine sum_congr rfl fun t _ => sum_congr rfl fun u _ => ?_
    simp only [decide_eq_true_eq, ne_eq]
    by_cases e : t = u
    · simp [e]
    · rw [if_pos e, if_pos fun c => e (inj c)]
  · rw [D2_key _ inj, ← mul_assoc, show (1 / 2 : ℝ) * 2 = 1 by norm_num, one_mul]
    · refine sum_congr rfl fun t _ => sum_congr rfl fun u _ => ?_
      simp only [decide_eq_true_eq]
    · intro t u
      refine sum_congr rfl fun m _ => ?_
      rw [(h3 _ _ _ (lt t) (lt u) (lo m)).1, (sw _ _ _).1]
  · rw [D3_key _ inj, ← mul_assoc, show (1 / 6 : ℝ) * 6 = 1 by norm_num, one_mul]
    · refine sum_congr rfl fun t _ => sum_congr rfl fun u _ => ?_
      simp only [decide_eq_true_eq]
      by_cases hb : u.1.1 < t.1.1
      · simp only [hb, true_and, if_true]
      · simp [hb]
    · intro t u v
      have e := h3 _ _ _ (lt t) (lt u) (lt v)
      exact ⟨by rw [e.1, (sw _ _ _).1], by rw [e.2, (sw _ _ _).2]⟩

section
variable (h : Threefold N one two s p ax w φ ψ ζ B)
include h

/-- A sum over all modes. -/
theorem Threefold.fsum (g : Nat → ℝ) :
    ∑ i ∈ range N, g i = ∑ k : one.toFinset, g k + ∑ t : two.toFinset, (g t.1.1 + g t.1.2) := by
  rw [h.sum, lsum_fin h.distinct.d1, lsum_fin (List.Nodup.of_map _ h.distinct.d2)]

/-- The quartic constants. -/
theorem Threefold.zero4 (h4 : Symm4 N ψ) : 1 / 32 * ∑ i ∈ range N, ∑ j ∈ range N, ψ i i j j =
    ∑ k : one.toFinset, ψ k k k k / 64 + ∑ t : two.toFinset, ψ t.1.1 t.1.1 t.1.1 t.1.1 / 48
    + 1 / 4 * ∑ k : one.toFinset, ψ k k k k / 16 + 1 / 8 * D2 (fun k l : one.toFinset => ψ k k l l / 4)
    + 1 / 2 * ∑ k : one.toFinset, ∑ t : two.toFinset, ψ k k t.1.1 t.1.1 / 4
    + ∑ t : two.toFinset, ψ t.1.1 t.1.1 t.1.1 t.1.1 / 16
    + 1 / 2 * D2 (fun t u : two.toFinset => (ψ t.1.1 t.1.1 u.1.1 u.1.1 + ψ t.1.1 t.1.1 u.1.2 u.1.2) / 8) := by
  have m1 : ∀ k : one.toFinset, (k : Nat) ∈ one := fun k => List.mem_toFinset.1 k.2
  have m2 : ∀ t : two.toFinset, (t : Nat × Nat) ∈ two := fun t => List.mem_toFinset.1 t.2
  simp only [h.fsum]
  simp only [sum_add_distrib]
  have a : ∑ k : one.toFinset, ∑ l : one.toFinset, ψ k k l l = ∑ k : one.toFinset, ψ k k k k +
      D2 fun k l : one.toFinset => ψ k k l l := sum2_sort fun k l : one.toFinset => ψ k k l l
  have b1 : ∑ k : one.toFinset, ∑ t : two.toFinset, ψ k k t.1.2 t.1.2 = ∑ k : one.toFinset, ∑ t : two.toFinset, ψ k k t.1.1 t.1.1 :=
    sum_congr rfl fun k _ => sum_congr rfl fun t _ => h.q_oott (m1 k) (m2 t) h4
  have b2 : ∑ t : two.toFinset, ∑ k : one.toFinset, ψ t.1.1 t.1.1 k k = ∑ k : one.toFinset, ∑ t : two.toFinset, ψ k k t.1.1 t.1.1 := by
    rw [sum_comm]
    exact sum_congr rfl fun k _ => sum_congr rfl fun t _ => symm4_pairs h4 (h.ltf (m2 t)) (h.lt1 (m1 k))
  have b3 : ∑ t : two.toFinset, ∑ k : one.toFinset, ψ t.1.2 t.1.2 k k = ∑ k : one.toFinset, ∑ t : two.toFinset, ψ k k t.1.1 t.1.1 := by
    rw [sum_comm, ← b1]
    exact sum_congr rfl fun k _ => sum_congr rfl fun t _ => symm4_pairs h4 (h.lts (m2 t)) (h.lt1 (m1 k))
  have c : ∑ t : two.toFinset, ∑ u : two.toFinset, ψ t.1.1 t.1.1 u.1.1 u.1.1 + ∑ t : two.toFinset, ∑ u : two.toFinset, ψ t.1.1 t.1.1 u.1.2 u.1.2
      + (∑ t : two.toFinset, ∑ u : two.toFinset, ψ t.1.2 t.1.2 u.1.1 u.1.1 + ∑ t : two.toFinset, ∑ u : two.toFinset, ψ t.1.2 t.1.2 u.1.2 u.1.2) =
      8 / 3 * ∑ t : two.toFinset, ψ t.1.1 t.1.1 t.1.1 t.1.1 +
        2 * D2 fun t u : two.toFinset => ψ t.1.1 t.1.1 u.1.1 u.1.1 + ψ t.1.1 t.1.1 u.1.2 u.1.2 := by
    have e : ∑ t : two.toFinset, ∑ u : two.toFinset, (2 * (ψ t.1.1 t.1.1 u.1.1 u.1.1 + ψ t.1.1 t.1.1 u.1.2 u.1.2)) =
        8 / 3 * ∑ t : two.toFinset, ψ t.1.1 t.1.1 t.1.1 t.1.1 +
        2 * D2 fun t u : two.toFinset => ψ t.1.1 t.1.1 u.1.1 u.1.1 + ψ t.1.1 t.1.1 u.1.2 u.1.2 := by
      rw [sum2_sort fun t u : two.toFinset => 2 * (ψ t.1.1 t.1.1 u.1.1 u.1.1 + ψ t.1.1 t.1.1 u.1.2 u.1.2), D2_smul, mul_sum]
      refine congrArg (· + _) (sum_congr rfl fun t _ => ?_)
      have := (h.q_tttt (m2 t) h4).2
      linarith
    rw [← e]
    simp only [← sum_add_distrib]
    refine sum_congr rfl fun t _ => sum_congr rfl fun u _ => ?_
    have := h.q_ttuu (m2 t) (m2 u) h4
    linarith
  have d1 : D2 (fun k l : one.toFinset => ψ k k l l / 4) = 1 / 4 * D2 fun k l : one.toFinset => ψ k k l l := by
    rw [← D2_smul]; exact D2_congr fun k l _ => by ring
  have d2 : D2 (fun t u : two.toFinset => (ψ t.1.1 t.1.1 u.1.1 u.1.1 + ψ t.1.1 t.1.1 u.1.2 u.1.2) / 8) =
      1 / 8 * D2 fun t u : two.toFinset => ψ t.1.1 t.1.1 u.1.1 u.1.1 + ψ t.1.1 t.1.1 u.1.2 u.1.2 := by
    rw [← D2_smul]; exact D2_congr fun k l _ => by ring
  rw [d1, d2]
  simp only [← Finset.sum_div]
  linarith

/-- The Coriolis constants. -/
theorem Threefold.zeroz (hz : ∀ a k l, k < N → l < N → ζ k l a = -ζ l k a) (hp : ∀ i < N, 0 < w i) :
    1 / 8 * ∑ k ∈ range N, ∑ l ∈ range N, (w k / w l + w l / w k) * corio B ζ k l =
    1 / 8 * D2 (fun k l : one.toFinset => (w k / w l + w l / w k) * (B 2 * ζ k l 2 ^ 2))
    + 1 / 2 * ∑ k : one.toFinset, ∑ t : two.toFinset, (w k / w t.1.1 + w t.1.1 / w k) * (B 1 * (ζ k t.1.1 0 ^ 2 + ζ k t.1.1 1 ^ 2))
    + 1 / 2 * D2 (fun t u : two.toFinset => (w t.1.1 / w u.1.1 + w u.1.1 / w t.1.1) *
      (B 2 / 2 * ζ t.1.1 u.1.2 2 ^ 2 + B 1 * ζ t.1.1 u.1.1 ax ^ 2))
    + 1 / 2 * ∑ t : two.toFinset, corio B ζ t.1.1 t.1.2 := by
  have m1 : ∀ k : one.toFinset, (k : Nat) ∈ one := fun k => List.mem_toFinset.1 k.2
  have m2 : ∀ t : two.toFinset, (t : Nat × Nat) ∈ two := fun t => List.mem_toFinset.1 t.2
  have ex : ∀ k l, corio B ζ k l = B 1 * (ζ k l 0 ^ 2 + ζ k l 1 ^ 2) + B 2 * ζ k l 2 ^ 2 := fun k l => by
    unfold corio
    simp only [sum_range_succ, sum_range_zero, h.rotation]
    ring
  have sy : ∀ k l, k < N → l < N → corio B ζ k l = corio B ζ l k := fun k l hk hl => by
    unfold corio
    exact sum_congr rfl fun a _ => by rw [hz a k l hk hl]; ring
  have oo : ∀ k l : one.toFinset, corio B ζ k l = B 2 * ζ k l 2 ^ 2 := fun k l => by
    rw [ex, (h.z_oo (m1 k) (m1 l)).1, (h.z_oo (m1 k) (m1 l)).2]; ring
  have ot : ∀ (k : one.toFinset) (t : two.toFinset), corio B ζ k t.1.1 = B 1 * (ζ k t.1.1 0 ^ 2 + ζ k t.1.1 1 ^ 2) ∧
      corio B ζ k t.1.2 = B 1 * (ζ k t.1.1 0 ^ 2 + ζ k t.1.1 1 ^ 2) := fun k t => by
    rw [ex, ex, (h.z_ot (m1 k) (m2 t)).1, (h.z_ot (m1 k) (m2 t)).2, h.z_ot_sq (m1 k) (m2 t)]
    constructor <;> ring
  have tt : ∀ t u : two.toFinset, corio B ζ t.1.1 u.1.1 + corio B ζ t.1.1 u.1.2 + corio B ζ t.1.2 u.1.1 + corio B ζ t.1.2 u.1.2 =
      8 * (B 2 / 2 * ζ t.1.1 u.1.2 2 ^ 2 / 2 + B 1 * ζ t.1.1 u.1.1 ax ^ 2 / 2) := fun t u => by
    obtain ⟨a1, a2, a3, a4⟩ := h.z_tt (m2 t) (m2 u)
    obtain ⟨b1, b2, b3⟩ := h.z_tt2 (m2 t) (m2 u)
    rw [ex, ex, ex, ex, a1, a2, a3, a4, b1, b2, b3]
    ring
  have self : ∀ k, k < N → corio B ζ k k = 0 := fun k hk => by
    unfold corio
    refine sum_eq_zero fun a _ => ?_
    have := hz a k k hk hk
    rw [show ζ k k a = 0 by linarith]; ring
  have fw : ∀ t : two.toFinset, w t.1.2 = w t.1.1 := fun t => h.frequencies t (m2 t)
  simp only [h.fsum, fw]
  have A : ∑ k : one.toFinset, (∑ l : one.toFinset, (w k / w l + w l / w k) * corio B ζ k l +
      ∑ t : two.toFinset, ((w k / w t.1.1 + w t.1.1 / w k) * corio B ζ k t.1.1 + (w k / w t.1.1 + w t.1.1 / w k) * corio B ζ k t.1.2)) =
      D2 (fun k l : one.toFinset => (w k / w l + w l / w k) * (B 2 * ζ k l 2 ^ 2)) +
      2 * ∑ k : one.toFinset, ∑ t : two.toFinset, (w k / w t.1.1 + w t.1.1 / w k) * (B 1 * (ζ k t.1.1 0 ^ 2 + ζ k t.1.1 1 ^ 2)) := by
    rw [sum_add_distrib]
    refine congrArg₂ (· + ·) ?_ ?_
    · rw [sum2_sort fun k l : one.toFinset => (w k / w l + w l / w k) * corio B ζ k l]
      rw [sum_eq_zero fun k _ => by rw [self k (h.lt1 (m1 k)), mul_zero], zero_add]
      exact D2_congr fun k l _ => by rw [oo]
    · rw [mul_sum]
      refine sum_congr rfl fun k _ => ?_
      rw [mul_sum]
      refine sum_congr rfl fun t _ => ?_
      rw [(ot k t).1, (ot k t).2]
      ring
  have C : ∑ t : two.toFinset, (∑ l : one.toFinset, (w t.1.1 / w l + w l / w t.1.1) * corio B ζ t.1.1 l +
      ∑ u : two.toFinset, ((w t.1.1 / w u.1.1 + w u.1.1 / w t.1.1) * corio B ζ t.1.1 u.1.1 +
        (w t.1.1 / w u.1.1 + w u.1.1 / w t.1.1) * corio B ζ t.1.1 u.1.2) +
      (∑ l : one.toFinset, (w t.1.1 / w l + w l / w t.1.1) * corio B ζ t.1.2 l +
      ∑ u : two.toFinset, ((w t.1.1 / w u.1.1 + w u.1.1 / w t.1.1) * corio B ζ t.1.2 u.1.1 +
        (w t.1.1 / w u.1.1 + w u.1.1 / w t.1.1) * corio B ζ t.1.2 u.1.2))) =
      2 * ∑ k : one.toFinset, ∑ t : two.toFinset, (w k / w t.1.1 + w t.1.1 / w k) * (B 1 * (ζ k t.1.1 0 ^ 2 + ζ k t.1.1 1 ^ 2)) +
      (4 * D2 (fun t u : two.toFinset => (w t.1.1 / w u.1.1 + w u.1.1 / w t.1.1) *
        (B 2 / 2 * ζ t.1.1 u.1.2 2 ^ 2 + B 1 * ζ t.1.1 u.1.1 ax ^ 2)) + 4 * ∑ t : two.toFinset, corio B ζ t.1.1 t.1.2) := by
    have e1 : 2 * ∑ k : one.toFinset, ∑ t : two.toFinset, (w k / w t.1.1 + w t.1.1 / w k) * (B 1 * (ζ k t.1.1 0 ^ 2 + ζ k t.1.1 1 ^ 2)) =
        ∑ t : two.toFinset, (∑ l : one.toFinset, (w t.1.1 / w l + w l / w t.1.1) * corio B ζ t.1.1 l +
          ∑ l : one.toFinset, (w t.1.1 / w l + w l / w t.1.1) * corio B ζ t.1.2 l) := by
      rw [sum_comm, mul_sum]
      refine sum_congr rfl fun t _ => ?_
      rw [mul_sum, ← sum_add_distrib]
      refine sum_congr rfl fun k _ => ?_
      rw [sy _ _ (h.ltf (m2 t)) (h.lt1 (m1 k)), sy _ _ (h.lts (m2 t)) (h.lt1 (m1 k)), (ot k t).1, (ot k t).2]
      ring
    have e2 : 4 * D2 (fun t u : two.toFinset => (w t.1.1 / w u.1.1 + w u.1.1 / w t.1.1) *
        (B 2 / 2 * ζ t.1.1 u.1.2 2 ^ 2 + B 1 * ζ t.1.1 u.1.1 ax ^ 2)) + 4 * ∑ t : two.toFinset, corio B ζ t.1.1 t.1.2 =
        ∑ t : two.toFinset, ∑ u : two.toFinset, (w t.1.1 / w u.1.1 + w u.1.1 / w t.1.1) *
          (corio B ζ t.1.1 u.1.1 + corio B ζ t.1.1 u.1.2 + corio B ζ t.1.2 u.1.1 + corio B ζ t.1.2 u.1.2) := by
      rw [sum2_sort fun t u : two.toFinset => (w t.1.1 / w u.1.1 + w u.1.1 / w t.1.1) *
          (corio B ζ t.1.1 u.1.1 + corio B ζ t.1.1 u.1.2 + corio B ζ t.1.2 u.1.1 + corio B ζ t.1.2 u.1.2), add_comm, ← D2_smul, mul_sum]
      refine congrArg₂ (· + ·) (sum_congr rfl fun t _ => ?_) (D2_congr fun t u _ => ?_)
      · rw [self _ (h.ltf (m2 t)), self _ (h.lts (m2 t)), sy _ _ (h.lts (m2 t)) (h.ltf (m2 t)), div_self (hp _ (h.ltf (m2 t))).ne']
        ring
      · rw [tt]; ring
    rw [e1, e2, ← sum_add_distrib]
    refine sum_congr rfl fun t _ => ?_
    have : ∑ u : two.toFinset, (w t.1.1 / w u.1.1 + w u.1.1 / w t.1.1) *
          (corio B ζ t.1.1 u.1.1 + corio B ζ t.1.1 u.1.2 + corio B ζ t.1.2 u.1.1 + corio B ζ t.1.2 u.1.2) =
        ∑ u : two.toFinset, ((w t.1.1 / w u.1.1 + w u.1.1 / w t.1.1) * corio B ζ t.1.1 u.1.1 +
        (w t.1.1 / w u.1.1 + w u.1.1 / w t.1.1) * corio B ζ t.1.1 u.1.2) +
        ∑ u : two.toFinset, ((w t.1.1 / w u.1.1 + w u.1.1 / w t.1.1) * corio B ζ t.1.2 u.1.1 +
        (w t.1.1 / w u.1.1 + w u.1.1 / w t.1.1) * corio B ζ t.1.2 u.1.2) := by
      rw [← sum_add_distrib]
      exact sum_congr rfl fun u _ => by ring
    rw [this]
    ring
  rw [A, C]
  ring

/-- The cubic constants. -/
theorem Threefold.zero3 (h3 : Symm3 N φ)
    (hc : ∀ k ∈ one, ∀ t ∈ two, ∀ u ∈ two, φ k t.1 u.2 = 0) :
    -(1 / 48) * ∑ a ∈ range N, ∑ b ∈ range N, ∑ c ∈ range N, φ a b c ^ 2 / (w a + w b + w c)
      - 1 / 32 * ∑ m ∈ range N, (∑ i ∈ range N, φ i i m) ^ 2 / w m =
    ground3 (fun k : one.toFinset => w k) (fun k l m : one.toFinset => φ k l m) +
    (-(1 / 48) * (6 * ∑ k : one.toFinset, ∑ t : two.toFinset, ∑ u : two.toFinset, φ k t.1.1 u.1.1 ^ 2 / (w k + w t.1.1 + w u.1.1)
        + 4 * ∑ t : two.toFinset, ∑ u : two.toFinset, ∑ v : two.toFinset, φ t.1.1 u.1.1 v.1.1 ^ 2 / (w t.1.1 + w u.1.1 + w v.1.1))
      - 1 / 32 * ∑ m : one.toFinset, ((∑ l : one.toFinset, φ l l m + 2 * ∑ t : two.toFinset, φ m t.1.1 t.1.1) ^ 2 -
        (∑ l : one.toFinset, φ l l m) ^ 2) / w m) := by
  have m1 : ∀ k : one.toFinset, (k : Nat) ∈ one := fun k => List.mem_toFinset.1 k.2
  have m2 : ∀ t : two.toFinset, (t : Nat × Nat) ∈ two := fun t => List.mem_toFinset.1 t.2
  have fw : ∀ t : two.toFinset, w t.1.2 = w t.1.1 := fun t => h.frequencies t (m2 t)
  have l1 : ∀ k : one.toFinset, (k : Nat) < N := fun k => h.lt1 (m1 k)
  have lf : ∀ t : two.toFinset, t.1.1 < N := fun t => h.ltf (m2 t)
  have ls : ∀ t : two.toFinset, t.1.2 < N := fun t => h.lts (m2 t)
  set G : Nat → Nat → Nat → ℝ := fun a b c => φ a b c ^ 2 / (w a + w b + w c) with hG
  have s12 : ∀ a b c, a < N → b < N → c < N → G a b c = G b a c := fun a b c ha hb hc => by
    simp only [hG]; rw [(h3 a b c ha hb hc).1, add_comm (w a)]
  have s23 : ∀ a b c, a < N → b < N → c < N → G a b c = G a c b := fun a b c ha hb hc => by
    simp only [hG]; rw [(h3 a b c ha hb hc).2, add_right_comm]
  have g1 : ∀ (k l : one.toFinset) (t : two.toFinset), G k l t.1.1 = 0 ∧ G k l t.1.2 = 0 := fun k l t => by
    simp only [hG, (h.c_oot (m1 k) (m1 l) (m2 t)).1, (h.c_oot (m1 k) (m1 l) (m2 t)).2]
    constructor <;> ring
  have g2 : ∀ (k : one.toFinset) (t u : two.toFinset), G k t.1.1 u.1.1 + G k t.1.1 u.1.2 + (G k t.1.2 u.1.1 + G k t.1.2 u.1.2) =
      2 * G k t.1.1 u.1.1 := fun k t u => by
    have z := hc k (m1 k) t (m2 t) u (m2 u)
    obtain ⟨a, b⟩ := h.c_ott (m1 k) (m2 t) (m2 u)
    have q : (s t.1.1 * s u.1.1) ^ 2 = 1 := by
      have e1 := g_sq (h.sense t (m2 t))
      have e2 := g_sq (h.sense u (m2 u))
      linear_combination (s u.1.1 * s u.1.1) * e1 + e2
    simp only [hG, z, a, b, fw, mul_pow _ (φ k t.1.1 u.1.1), q]
    ring
  have g3 : ∀ t u v : two.toFinset, G t.1.1 u.1.1 v.1.1 + G t.1.1 u.1.1 v.1.2 + (G t.1.1 u.1.2 v.1.1 + G t.1.1 u.1.2 v.1.2) +
      (G t.1.2 u.1.1 v.1.1 + G t.1.2 u.1.1 v.1.2 + (G t.1.2 u.1.2 v.1.1 + G t.1.2 u.1.2 v.1.2)) = 4 * G t.1.1 u.1.1 v.1.1 := fun t u v => by
    obtain ⟨z1, z2, z3, z4⟩ := h.c_odd (m2 t) (m2 u) (m2 v)
    obtain ⟨a, b, c⟩ := h.c_ttt (m2 t) (m2 u) (m2 v)
    have e1 := g_sq (h.sense t (m2 t))
    have e2 := g_sq (h.sense u (m2 u))
    have e3 := g_sq (h.sense v (m2 v))
    have q1 : (-(s u.1.1 * s v.1.1)) ^ 2 = 1 := by linear_combination (s v.1.1 * s v.1.1) * e2 + e3
    have q2 : (-(s t.1.1 * s v.1.1)) ^ 2 = 1 := by linear_combination (s v.1.1 * s v.1.1) * e1 + e3
    have q3 : (-(s t.1.1 * s u.1.1)) ^ 2 = 1 := by linear_combination (s u.1.1 * s u.1.1) * e1 + e2
    simp only [hG, z1, z2, z3, z4, a, b, c, fw, mul_pow _ (φ t.1.1 u.1.1 v.1.1), q1, q2, q3]
    ring
  have T : ∑ a ∈ range N, ∑ b ∈ range N, ∑ c ∈ range N, G a b c =
      ∑ k : one.toFinset, ∑ l : one.toFinset, ∑ m : one.toFinset, G k l m +
      6 * ∑ k : one.toFinset, ∑ t : two.toFinset, ∑ u : two.toFinset, G k t.1.1 u.1.1 +
      4 * ∑ t : two.toFinset, ∑ u : two.toFinset, ∑ v : two.toFinset, G t.1.1 u.1.1 v.1.1 := by
    simp only [h.fsum]
    simp only [g1, add_zero, sum_const_zero]
    have a1 : ∀ (k : one.toFinset) (t : two.toFinset) , ∑ m : one.toFinset, G k t.1.1 m = 0 ∧ ∑ m : one.toFinset, G k t.1.2 m = 0 :=
      fun k t => ⟨sum_eq_zero fun m _ => by rw [s23 _ _ _ (l1 k) (lf t) (l1 m), (g1 k m t).1],
        sum_eq_zero fun m _ => by rw [s23 _ _ _ (l1 k) (ls t) (l1 m), (g1 k m t).2]⟩
    have a2 : ∀ (t : two.toFinset) (l m : one.toFinset), G t.1.1 l m = 0 ∧ G t.1.2 l m = 0 := fun t l m =>
      ⟨by rw [s12 _ _ _ (lf t) (l1 l) (l1 m), s23 _ _ _ (l1 l) (lf t) (l1 m), (g1 l m t).1],
        by rw [s12 _ _ _ (ls t) (l1 l) (l1 m), s23 _ _ _ (l1 l) (ls t) (l1 m), (g1 l m t).2]⟩
    have A : ∑ k : one.toFinset, (∑ l : one.toFinset, ∑ m : one.toFinset, G k l m + ∑ t : two.toFinset,
        (∑ m : one.toFinset, G k t.1.1 m + ∑ u : two.toFinset, (G k t.1.1 u.1.1 + G k t.1.1 u.1.2) +
        (∑ m : one.toFinset, G k t.1.2 m + ∑ u : two.toFinset, (G k t.1.2 u.1.1 + G k t.1.2 u.1.2)))) =
        ∑ k : one.toFinset, ∑ l : one.toFinset, ∑ m : one.toFinset, G k l m +
        2 * ∑ k : one.toFinset, ∑ t : two.toFinset, ∑ u : two.toFinset, G k t.1.1 u.1.1 := by
      rw [sum_add_distrib, mul_sum]
      refine congrArg (_ + ·) (sum_congr rfl fun k _ => ?_)
      rw [mul_sum]
      refine sum_congr rfl fun t _ => ?_
      rw [(a1 k t).1, (a1 k t).2, zero_add, zero_add, ← sum_add_distrib, mul_sum]
      exact sum_congr rfl fun u _ => g2 k t u
    have C : ∑ t : two.toFinset, (∑ l : one.toFinset, (∑ m : one.toFinset, G t.1.1 l m + ∑ u : two.toFinset, (G t.1.1 l u.1.1 + G t.1.1 l u.1.2)) +
        ∑ u : two.toFinset, (∑ m : one.toFinset, G t.1.1 u.1.1 m + ∑ v : two.toFinset, (G t.1.1 u.1.1 v.1.1 + G t.1.1 u.1.1 v.1.2) +
          (∑ m : one.toFinset, G t.1.1 u.1.2 m + ∑ v : two.toFinset, (G t.1.1 u.1.2 v.1.1 + G t.1.1 u.1.2 v.1.2))) +
        (∑ l : one.toFinset, (∑ m : one.toFinset, G t.1.2 l m + ∑ u : two.toFinset, (G t.1.2 l u.1.1 + G t.1.2 l u.1.2)) +
        ∑ u : two.toFinset, (∑ m : one.toFinset, G t.1.2 u.1.1 m + ∑ v : two.toFinset, (G t.1.2 u.1.1 v.1.1 + G t.1.2 u.1.1 v.1.2) +
          (∑ m : one.toFinset, G t.1.2 u.1.2 m + ∑ v : two.toFinset, (G t.1.2 u.1.2 v.1.1 + G t.1.2 u.1.2 v.1.2))))) =
        4 * ∑ k : one.toFinset, ∑ t : two.toFinset, ∑ u : two.toFinset, G k t.1.1 u.1.1 +
        4 * ∑ t : two.toFinset, ∑ u : two.toFinset, ∑ v : two.toFinset, G t.1.1 u.1.1 v.1.1 := by
      have e1 : 4 * ∑ k : one.toFinset, ∑ t : two.toFinset, ∑ u : two.toFinset, G k t.1.1 u.1.1 =
          ∑ t : two.toFinset, (∑ l : one.toFinset, ∑ u : two.toFinset, (G t.1.1 l u.1.1 + G t.1.1 l u.1.2 + (G t.1.2 l u.1.1 + G t.1.2 l u.1.2)) +
            ∑ u : two.toFinset, ∑ l : one.toFinset, (G t.1.1 u.1.1 l + G t.1.1 u.1.2 l + (G t.1.2 u.1.1 l + G t.1.2 u.1.2 l))) := by
        rw [sum_comm, mul_sum]
        refine sum_congr rfl fun t _ => ?_
        have : ∑ u : two.toFinset, ∑ l : one.toFinset, (G t.1.1 u.1.1 l + G t.1.1 u.1.2 l + (G t.1.2 u.1.1 l + G t.1.2 u.1.2 l)) =
            ∑ l : one.toFinset, ∑ u : two.toFinset, (G t.1.1 u.1.1 l + G t.1.1 u.1.2 l + (G t.1.2 u.1.1 l + G t.1.2 u.1.2 l)) := sum_comm
        rw [this, ← sum_add_distrib, mul_sum]
        refine sum_congr rfl fun l _ => ?_
        rw [← sum_add_distrib, mul_sum]
        refine sum_congr rfl fun u _ => ?_
        rw [s12 _ _ _ (lf t) (l1 l) (lf u), s12 _ _ _ (lf t) (l1 l) (ls u), s12 _ _ _ (ls t) (l1 l) (lf u), s12 _ _ _ (ls t) (l1 l) (ls u),
          s23 _ _ _ (lf t) (lf u) (l1 l), s23 _ _ _ (lf t) (ls u) (l1 l), s23 _ _ _ (ls t) (lf u) (l1 l), s23 _ _ _ (ls t) (ls u) (l1 l),
          s12 _ _ _ (lf t) (l1 l) (lf u), s12 _ _ _ (lf t) (l1 l) (ls u), s12 _ _ _ (ls t) (l1 l) (lf u), s12 _ _ _ (ls t) (l1 l) (ls u)]
        linarith [g2 l t u]
      have e2 : 4 * ∑ t : two.toFinset, ∑ u : two.toFinset, ∑ v : two.toFinset, G t.1.1 u.1.1 v.1.1 =
          ∑ t : two.toFinset, ∑ u : two.toFinset, ∑ v : two.toFinset, (G t.1.1 u.1.1 v.1.1 + G t.1.1 u.1.1 v.1.2 + (G t.1.1 u.1.2 v.1.1 + G t.1.1 u.1.2 v.1.2) +
      (G t.1.2 u.1.1 v.1.1 + G t.1.2 u.1.1 v.1.2 + (G t.1.2 u.1.2 v.1.1 + G t.1.2 u.1.2 v.1.2))) := by
        simp only [mul_sum, g3]
      rw [e1, e2, ← sum_add_distrib]
      refine sum_congr rfl fun t _ => ?_
      simp only [a2, sum_const_zero, zero_add]
      simp only [sum_add_distrib]
      ring
    rw [A, C]
    ring
  have S : ∑ m ∈ range N, (∑ i ∈ range N, φ i i m) ^ 2 / w m =
      ∑ m : one.toFinset, (∑ l : one.toFinset, φ l l m + 2 * ∑ t : two.toFinset, φ m t.1.1 t.1.1) ^ 2 / w m := by
    rw [h.fsum]
    have z : ∀ t : two.toFinset, ∑ i ∈ range N, φ i i t.1.1 = 0 ∧ ∑ i ∈ range N, φ i i t.1.2 = 0 := fun t => by
      rw [h.fsum, h.fsum]
      constructor
      · rw [sum_eq_zero fun k _ => (h.c_oot (m1 k) (m1 k) (m2 t)).1, sum_eq_zero fun u _ => by
          rw [((h.c_diag h3 (m2 u)).2 t (m2 t)).1]; ring, add_zero]
      · rw [sum_eq_zero fun k _ => (h.c_oot (m1 k) (m1 k) (m2 t)).2, sum_eq_zero fun u _ => by
          rw [((h.c_diag h3 (m2 u)).2 t (m2 t)).2.1, ((h.c_diag h3 (m2 u)).2 t (m2 t)).2.2.1]; ring, add_zero]
    rw [sum_eq_zero fun (t : two.toFinset) _ => by rw [(z t).1, (z t).2]; ring, add_zero]
    refine sum_congr rfl fun m _ => ?_
    rw [h.fsum, mul_sum]
    congr 3
    refine sum_congr rfl fun t _ => ?_
    rw [((h.c_diag h3 (m2 t)).1 m (m1 m)).1, (h3 _ _ _ (lf t) (lf t) (l1 m)).2, (h3 _ _ _ (lf t) (l1 m) (lf t)).1]
    ring
  rw [T, S, ground3]
  simp only [hG, sub_div, sum_sub_distrib]
  ring

/-- The zero-point constant and the anharmonic constants of the ground state add up to its second-order energy, but for
Coriolis terms. -/
theorem Threefold.zero (h3 : Symm3 N φ) (h4 : Symm4 N ψ) (hz : ∀ a k l, k < N → l < N → ζ k l a = -ζ l k a)
    (hp : ∀ i < N, 0 < w i) (hc : ∀ k ∈ one, ∀ t ∈ two, ∀ u ∈ two, φ k t.1 u.2 = 0) :
    e0Spec noneOut one w φ ψ + e2Spec noneOut one (two.map (·.1)) w φ ψ + e3Spec noneOut one (two.map (·.1)) w φ
      + 1 / 4 * ∑ k : one.toFinset, xkkSpecL noneOut one w φ ψ k
      + 1 / 8 * D2 (fun k l : one.toFinset => xnnSpec noneOut one w φ ψ ζ B k l)
      + 1 / 2 * ∑ k : one.toFinset, ∑ t : two.toFinset, xndSpec noneOut one (two.map (·.1)) w φ ψ ζ B k t.1.1
      + ∑ t : two.toFinset, xkkSpecL noneOut (one ++ two.map (·.1)) w φ ψ t.1.1
      + 1 / 2 * D2 (fun t u : two.toFinset => xddSpec noneOut one (two.map (·.1)) w φ ψ ζ B ax t.1.1 u.1.1 u.1.2) =
    -second1 w φ (toInt fun _ : Fin N => 0) + expect2 w ψ ζ B (toInt fun _ : Fin N => 0)
      + 1 / 2 * (∑ k ∈ range N, ∑ l ∈ range k, corio B ζ k l - ∑ t : two.toFinset, corio B ζ t.1.1 t.1.2) := by
  have m1 : ∀ k : one.toFinset, (k : Nat) ∈ one := fun k => List.mem_toFinset.1 k.2
  have m2 : ∀ t : two.toFinset, (t : Nat × Nat) ∈ two := fun t => List.mem_toFinset.1 t.2
  have l1 : ∀ k : one.toFinset, (k : Nat) < N := fun k => h.lt1 (m1 k)
  have lf : ∀ t : two.toFinset, t.1.1 < N := fun t => h.ltf (m2 t)
  have d1 := h.distinct.d1
  have d2 := h.distinct.d2
  have d2' := List.Nodup.of_map _ d2
  have A3 : Sy3 fun k l m : one.toFinset => φ k l m := fun k l m => h3 _ _ _ (l1 k) (l1 l) (l1 m)
  have C3 : Sy3 fun t u v : two.toFinset => φ t.1.1 u.1.1 v.1.1 := fun t u v => h3 _ _ _ (lf t) (lf u) (lf v)
  have cyc : ∀ (t u : two.toFinset) (m : one.toFinset), φ t.1.1 u.1.1 m = φ m t.1.1 u.1.1 := fun t u m =>
    (h3 _ _ _ (lf t) (lf u) (l1 m)).2.trans (h3 _ _ _ (lf t) (l1 m) (lf u)).1
  have G := ground_form A3 (w := fun k : one.toFinset => w k) fun k => (hp _ (l1 k)).ne'
  have T := top_ground (wo := fun k : one.toFinset => w k) (wt := fun t : two.toFinset => w t.1.1)
    (fun m : one.toFinset => ∑ l : one.toFinset, φ l l m)
    (b := fun k t u => φ k t.1.1 u.1.1) (fun k t u => (h3 _ _ _ (l1 k) (lf t) (lf u)).2) C3
    (fun k => (hp _ (l1 k)).ne') fun t => (hp _ (lf t)).ne'
  have X1 : 1 / 4 * ∑ k : one.toFinset, xkkSpecL noneOut one w φ ψ k = 1 / 4 * ∑ k : one.toFinset, ψ k k k k / 16 +
      1 / 4 * ∑ k : one.toFinset, (-∑ l : one.toFinset, φ k k l ^ 2 * (1 / (8 * w l) + 1 / (32 * (2 * w k + w l)) - 1 / (2 * w k - w l) / 32)) := by
    rw [← mul_add, ← sum_add_distrib]
    refine congrArg _ (sum_congr rfl fun k _ => ?_)
    unfold xkkSpecL
    simp only [frac_false]
    rw [lsum_fin d1, sub_eq_add_neg]
  have X2 : 1 / 8 * D2 (fun k l : one.toFinset => xnnSpec noneOut one w φ ψ ζ B k l) = 1 / 8 * D2 (fun k l : one.toFinset => ψ k k l l / 4) +
      1 / 8 * D2 (fun k l : one.toFinset => -∑ m : one.toFinset, φ k k m * φ l l m / (4 * w m) - ∑ m : one.toFinset, φ k l m ^ 2 / 8 * four4 (w k) (w l) (w m)) +
      1 / 8 * D2 (fun k l : one.toFinset => (w k / w l + w l / w k) * (B 2 * ζ k l 2 ^ 2)) := by
    rw [← mul_add, ← mul_add, ← D2_add, ← D2_add]
    refine congrArg _ (D2_congr fun k l _ => ?_)
    unfold xnnSpec
    simp only [four4_eq]
    rw [lsum_fin d1, lsum_fin d1]
    ring
  have X3 : 1 / 2 * ∑ k : one.toFinset, ∑ t : two.toFinset, xndSpec noneOut one (two.map (·.1)) w φ ψ ζ B k t.1.1 =
      1 / 2 * ∑ k : one.toFinset, ∑ t : two.toFinset, ψ k k t.1.1 t.1.1 / 4 +
      1 / 2 * ∑ m : one.toFinset, ∑ t : two.toFinset, (-((∑ l : one.toFinset, φ l l m) * φ m t.1.1 t.1.1 / (4 * w m))) +
      1 / 2 * ∑ k : one.toFinset, ∑ t : two.toFinset, (-∑ u : two.toFinset, φ k t.1.1 u.1.1 ^ 2 / 8 * four4 (w k) (w t.1.1) (w u.1.1)) +
      1 / 2 * ∑ k : one.toFinset, ∑ t : two.toFinset, (w k / w t.1.1 + w t.1.1 / w k) * (B 1 * (ζ k t.1.1 0 ^ 2 + ζ k t.1.1 1 ^ 2)) := by
    have e : ∑ m : one.toFinset, ∑ t : two.toFinset, (-((∑ l : one.toFinset, φ l l m) * φ m t.1.1 t.1.1 / (4 * w m))) =
        ∑ k : one.toFinset, ∑ t : two.toFinset, (-∑ m : one.toFinset, φ k k m * φ t.1.1 t.1.1 m / (4 * w m)) := by
      have e1 : ∀ m : one.toFinset, ∑ t : two.toFinset, (-((∑ l : one.toFinset, φ l l m) * φ m t.1.1 t.1.1 / (4 * w m))) =
          ∑ k : one.toFinset, ∑ t : two.toFinset, (-(φ k k m * φ t.1.1 t.1.1 m / (4 * w m))) := fun m => by
        rw [sum_comm]
        refine sum_congr rfl fun t _ => ?_
        rw [sum_neg_distrib, sum_mul, Finset.sum_div, cyc]
      rw [sum_congr rfl fun m _ => e1 m, sum_comm]
      refine sum_congr rfl fun k _ => ?_
      rw [sum_comm]
      exact sum_congr rfl fun t _ => by rw [sum_neg_distrib]
    rw [e, ← mul_add, ← mul_add, ← mul_add, ← sum_add_distrib, ← sum_add_distrib, ← sum_add_distrib]
    refine congrArg _ (sum_congr rfl fun k _ => ?_)
    rw [← sum_add_distrib, ← sum_add_distrib, ← sum_add_distrib]
    refine sum_congr rfl fun t _ => ?_
    unfold xndSpec
    simp only [four4_eq]
    rw [lsum_fin d1, lsum_fst d2']
    ring
  have X4 : ∑ t : two.toFinset, xkkSpecL noneOut (one ++ two.map (·.1)) w φ ψ t.1.1 = ∑ t : two.toFinset, ψ t.1.1 t.1.1 t.1.1 t.1.1 / 16 +
      ∑ t : two.toFinset, (-∑ l : one.toFinset, φ l t.1.1 t.1.1 ^ 2 * (1 / (8 * w l) + 1 / (32 * (2 * w t.1.1 + w l)) - 1 / (2 * w t.1.1 - w l) / 32)
        - ∑ u : two.toFinset, φ t.1.1 t.1.1 u.1.1 ^ 2 * (1 / (8 * w u.1.1) + 1 / (32 * (2 * w t.1.1 + w u.1.1)) - 1 / (2 * w t.1.1 - w u.1.1) / 32)) := by
    rw [← sum_add_distrib]
    refine sum_congr rfl fun t _ => ?_
    unfold xkkSpecL
    simp only [frac_false]
    rw [List.map_append, List.sum_append, lsum_fin d1, lsum_fst d2']
    simp only [cyc]
    ring
  have X5 : 1 / 2 * D2 (fun t u : two.toFinset => xddSpec noneOut one (two.map (·.1)) w φ ψ ζ B ax t.1.1 u.1.1 u.1.2) =
      1 / 2 * D2 (fun t u : two.toFinset => (ψ t.1.1 t.1.1 u.1.1 u.1.1 + ψ t.1.1 t.1.1 u.1.2 u.1.2) / 8) +
      1 / 2 * D2 (fun t u : two.toFinset => -∑ m : one.toFinset, φ m t.1.1 t.1.1 * φ m u.1.1 u.1.1 / (4 * w m)
        - ∑ m : one.toFinset, φ m t.1.1 u.1.1 ^ 2 / 16 * four4 (w t.1.1) (w u.1.1) (w m)
        - ∑ v : two.toFinset, φ t.1.1 u.1.1 v.1.1 ^ 2 / 8 * four4 (w t.1.1) (w u.1.1) (w v.1.1)) +
      1 / 2 * D2 (fun t u : two.toFinset => (w t.1.1 / w u.1.1 + w u.1.1 / w t.1.1) *
        (B 2 / 2 * ζ t.1.1 u.1.2 2 ^ 2 + B 1 * ζ t.1.1 u.1.1 ax ^ 2)) := by
    rw [← mul_add, ← mul_add, ← D2_add, ← D2_add]
    refine congrArg _ (D2_congr fun t u _ => ?_)
    unfold xddSpec
    simp only [four4_eq]
    rw [lsum_fin d1, lsum_fin d1, lsum_fst d2']
    simp only [cyc]
    ring
  rw [ground_energy h3 h4 hz hp, h.zero3 h3 hc, h.zero4 h4, h.zeroz hz hp, ← G, ← T, X1, X2, X3, X4, X5, e0_fin h3 d1 fun k hk => h.lt1 hk,
    e2_fin d1 d2', e3_fin h3 d1 d2 (fun k hk => h.lt1 hk) fun t ht => h.ltf ht]
  simp only [cyc]
  ring

end

end Verif
