import Verif.Lemmas.Threefold
import Verif.Spec.Xcals
import Verif.Spec.Whole

/-!
# The anharmonic constants of a molecule with a threefold axis

The constants for non-degenerate perturbation theory, expressed by those the code computes. Helpers for C105.
-/

namespace Verif

open Finset

theorem lsum_lin {X : Type} (L : List X) (a b c d : ℝ) (f g k l : X → ℝ)
    (h : ∀ x ∈ L, a * f x + b * g x = c * k x + d * l x) :
    a * (L.map f).sum + b * (L.map g).sum = c * (L.map k).sum + d * (L.map l).sum := by
  induction L with
  | nil => simp
  | cons x L ih =>
    have e := h x (by simp)
    have i := ih fun y hy => h y (by simp [hy])
    simp only [List.map_cons, List.sum_cons]
    linarith

theorem lsum_zero {X : Type} (L : List X) (f : X → ℝ) (h : ∀ x ∈ L, f x = 0) : (L.map f).sum = 0 := by
  have := lsum_lin L 1 0 0 0 f f f f fun x hx => by rw [h x hx]; ring
  linarith

/-- No combination of modes is left out. -/
abbrev noneOut : Nat → Nat → Nat → Prop := fun _ _ _ => False

theorem frac_false (d : ℝ) : fracUnless False d = 1 / d := by simp [fracUnless]

theorem ff_congr {w : Nat → ℝ} {a b c a' b' c' : Nat} (h1 : w a = w a') (h2 : w b = w b') (h3 : w c = w c') :
    fourFracs noneOut w a b c = fourFracs noneOut w a' b' c' := by
  unfold fourFracs
  rw [h1, h2, h3]

theorem ff_swap {w : Nat → ℝ} (a b c : Nat) : fourFracs noneOut w a b c = fourFracs noneOut w b a c := by
  unfold fourFracs
  simp only [frac_false]
  rw [show w b + w a + w c = w a + w b + w c by ring, show w b - w a + w c = -w a + w b + w c by ring,
    show w b + w a - w c = w a + w b - w c by ring, show -w b + w a + w c = w a - w b + w c by ring]
  ring

section
variable {N : Nat} {w : Nat → ℝ} {φ : Nat → Nat → Nat → ℝ} {ψ : Nat → Nat → Nat → Nat → ℝ} {ζ : Nat → Nat → Nat → ℝ} {B : Nat → ℝ}

theorem symm4_pairs (h4 : Symm4 N ψ) {k l : Nat} (hk : k < N) (hl : l < N) : ψ k k l l = ψ l l k k := by
  rw [(h4 _ _ _ _ hk hk hl hl).2.1, (h4 _ _ _ _ hk hl hk hl).1, (h4 _ _ _ _ hl hk hk hl).2.2, (h4 _ _ _ _ hl hk hl hk).2.1]

theorem xkl_symm (h3 : Symm3 N φ) (h4 : Symm4 N ψ) (hz : ∀ a k l, k < N → l < N → ζ k l a = -ζ l k a) {k l : Nat} (hk : k < N)
    (hl : l < N) : xklSpec noneOut N w φ ψ ζ B k l = xklSpec noneOut N w φ ψ ζ B l k := by
  have e : ∀ k l, xklSpec noneOut N w φ ψ ζ B k l = ψ k k l l / 4 - ∑ m ∈ range N, φ k k m * φ l l m / (4 * w m)
      - ∑ m ∈ range N, φ k l m ^ 2 / 8 * fourFracs noneOut w k l m
      + (w k / w l + w l / w k) * ∑ a ∈ range 3, B a * ζ k l a ^ 2 := fun _ _ => rfl
  rw [e, e, symm4_pairs h4 hk hl, add_comm (w k / w l)]
  congr 1
  · congr 1
    · congr 1
      exact sum_congr rfl fun m _ => by ring
    · refine sum_congr rfl fun m hm => ?_
      rw [(h3 _ _ _ hk hl (mem_range.1 hm)).1, ff_swap]
  · congr 1
    refine sum_congr rfl fun a _ => ?_
    rw [hz a k l hk hl]
    ring

theorem xSpec_off (h3 : Symm3 N φ) (h4 : Symm4 N ψ) (hz : ∀ a k l, k < N → l < N → ζ k l a = -ζ l k a) {k l : Nat} (hk : k < N)
    (hl : l < N) (hn : k ≠ l) : xSpec noneOut N w φ ψ ζ B k l = xklSpec noneOut N w φ ψ ζ B k l := by
  unfold xSpec
  rw [if_neg hn]
  rcases Nat.lt_or_gt_of_ne hn with c | c
  · rw [max_eq_right c.le, min_eq_left c.le, xkl_symm h3 h4 hz hl hk]
  · rw [max_eq_left c.le, min_eq_right c.le]

end

section
variable {N : Nat} {one : List Nat} {two : List (Nat × Nat)} {s p : Nat → ℝ} {ax : Nat} {w : Nat → ℝ}
  {φ : Nat → Nat → Nat → ℝ} {ψ : Nat → Nat → Nat → Nat → ℝ} {ζ : Nat → Nat → Nat → ℝ} {B : Nat → ℝ}
  (h : Threefold N one two s p ax w φ ψ ζ B) (h3 : Symm3 N φ) (h4 : Symm4 N ψ)
  (hz : ∀ a k l, k < N → l < N → ζ k l a = -ζ l k a)

section
include h h3 h4 hz

theorem Threefold.off {k l : Nat} (hk : k < N) (hl : l < N) (hn : k ≠ l) : xSpec noneOut N w φ ψ ζ B k l =
    ψ k k l l / 4 - ((one.map fun m => φ k k m * φ l l m / (4 * w m)).sum +
      (two.map fun v => φ k k v.1 * φ l l v.1 / (4 * w v.1) + φ k k v.2 * φ l l v.2 / (4 * w v.1)).sum)
    - ((one.map fun m => φ k l m ^ 2 / 8 * fourFracs noneOut w k l m).sum +
      (two.map fun v => (φ k l v.1 ^ 2 + φ k l v.2 ^ 2) / 8 * fourFracs noneOut w k l v.1).sum)
    + (w k / w l + w l / w k) * (B 1 * (ζ k l 0 ^ 2 + ζ k l 1 ^ 2) + B 2 * ζ k l 2 ^ 2) := by
  rw [xSpec_off h3 h4 hz hk hl hn]
  have e : xklSpec noneOut N w φ ψ ζ B k l = ψ k k l l / 4 - ∑ m ∈ range N, φ k k m * φ l l m / (4 * w m)
      - ∑ m ∈ range N, φ k l m ^ 2 / 8 * fourFracs noneOut w k l m
      + (w k / w l + w l / w k) * ∑ a ∈ range 3, B a * ζ k l a ^ 2 := rfl
  rw [e, h.sum, h.sum, sum_range_succ, sum_range_succ, sum_range_one, h.rotation]
  have e1 : (two.map fun t => φ k k t.1 * φ l l t.1 / (4 * w t.1) + φ k k t.2 * φ l l t.2 / (4 * w t.2)) =
      two.map fun v => φ k k v.1 * φ l l v.1 / (4 * w v.1) + φ k k v.2 * φ l l v.2 / (4 * w v.1) :=
    List.map_congr_left fun v hv => by rw [h.frequencies v hv]
  have e2 : (two.map fun t => φ k l t.1 ^ 2 / 8 * fourFracs noneOut w k l t.1 + φ k l t.2 ^ 2 / 8 * fourFracs noneOut w k l t.2) =
      two.map fun v => (φ k l v.1 ^ 2 + φ k l v.2 ^ 2) / 8 * fourFracs noneOut w k l v.1 :=
    List.map_congr_left fun v hv => by
      rw [ff_congr (w := w) (a := k) (b := l) (c := v.2) rfl rfl (h.frequencies v hv)]; ring
  rw [e1, e2]
  ring

theorem Threefold.x_one_one {k l : Nat} (hk : k ∈ one) (hl : l ∈ one) (hn : k ≠ l) :
    xSpec noneOut N w φ ψ ζ B k l = xnnSpec noneOut one w φ ψ ζ B k l := by
  rw [h.off h3 h4 hz (h.lt1 hk) (h.lt1 hl) hn, (h.z_oo hk hl).1, (h.z_oo hk hl).2]
  rw [lsum_zero two _ fun v hv => by rw [(h.c_oot hk hk hv).1, (h.c_oot hk hk hv).2]; ring,
    lsum_zero two _ fun v hv => by rw [(h.c_oot hk hl hv).1, (h.c_oot hk hl hv).2]; ring]
  unfold xnnSpec
  ring

end

section
include h h3

theorem Threefold.c_tto {t u : Nat × Nat} (ht : t ∈ two) (hu : u ∈ two) {m : Nat} (hm : m ∈ one) :
    φ t.2 u.2 m = s t.1 * s u.1 * φ t.1 u.1 m ∧ φ t.2 u.1 m = -(s t.1 * s u.1) * φ t.1 u.2 m := by
  have e := h.c_ott hm ht hu
  have c : ∀ a b, a < N → b < N → φ a b m = φ m a b := fun a b ha hb => by
    rw [(h3 a b m ha hb (h.lt1 hm)).2, (h3 a m b ha (h.lt1 hm) hb).1]
  rw [c _ _ (h.lts ht) (h.lts hu), c _ _ (h.ltf ht) (h.ltf hu), c _ _ (h.lts ht) (h.ltf hu), c _ _ (h.ltf ht) (h.lts hu)]
  exact e

/-- The constants with both components of one pair. -/
theorem Threefold.c_diag {t : Nat × Nat} (ht : t ∈ two) : (∀ m ∈ one, φ t.2 t.2 m = φ t.1 t.1 m ∧ φ t.1 t.2 m = 0) ∧
    ∀ v ∈ two, φ t.2 t.2 v.1 = -φ t.1 t.1 v.1 ∧ φ t.1 t.1 v.2 = 0 ∧ φ t.2 t.2 v.2 = 0 ∧ φ t.1 t.2 v.1 = 0 ∧
      φ t.1 t.2 v.2 ^ 2 = φ t.1 t.1 v.1 ^ 2 := by
  have g := g_sq (h.sense t ht)
  refine ⟨fun m hm => ?_, fun v hv => ?_⟩
  · obtain ⟨a, b⟩ := h.c_tto h3 ht ht hm
    refine ⟨by rw [a, g, one_mul], ?_⟩
    have c := (h3 _ _ _ (h.ltf ht) (h.lts ht) (h.lt1 hm)).1
    rw [b, g] at c
    linarith
  · obtain ⟨a, b, c⟩ := h.c_ttt ht ht hv
    obtain ⟨z1, z2, z3, z4⟩ := h.c_odd ht ht hv
    refine ⟨by rw [c, g]; ring, z1, z4, z2, ?_⟩
    rw [a]
    linear_combination φ t.1 t.1 v.1 ^ 2 * (s v.1 * s v.1) * g + φ t.1 t.1 v.1 ^ 2 * g_sq (h.sense v hv)

end

section
include h h3 h4 hz

theorem Threefold.x_one_two {k : Nat} (hk : k ∈ one) {t : Nat × Nat} (ht : t ∈ two)
    (hc : ∀ u ∈ two, φ k t.1 u.2 = 0) :
    xSpec noneOut N w φ ψ ζ B k t.1 = xndSpec noneOut one (two.map (·.1)) w φ ψ ζ B k t.1 ∧
    xSpec noneOut N w φ ψ ζ B k t.2 = xndSpec noneOut one (two.map (·.1)) w φ ψ ζ B k t.1 := by
  have d := h.distinct
  have z : ∀ c, c < N → (∀ m ∈ one, φ k m c = 0) → ∀ m ∈ one, φ k c m = 0 := fun c hcN hh m hm => by
    rw [(h3 _ _ _ (h.lt1 hk) hcN (h.lt1 hm)).2, hh m hm]
  have z1 := z t.1 (h.ltf ht) fun m hm => (h.c_oot hk hm ht).1
  have z2 := z t.2 (h.lts ht) fun m hm => (h.c_oot hk hm ht).2
  obtain ⟨dg, -⟩ := h.c_diag h3 ht
  have e0 : ∀ f : Nat → ℝ, ((two.map (·.1)).map f).sum = (two.map fun v => f v.1).sum := fun f => by
    rw [List.map_map]; rfl
  constructor
  · rw [h.off h3 h4 hz (h.lt1 hk) (h.ltf ht) (d.d12 hk ht), (h.z_ot hk ht).1,
      lsum_zero two _ fun v hv => by rw [(h.c_oot hk hk hv).1, (h.c_oot hk hk hv).2]; ring,
      lsum_zero one (fun m => φ k t.1 m ^ 2 / 8 * _) fun m hm => by rw [z1 m hm]; ring]
    unfold xndSpec
    rw [e0]
    have := lsum_lin two 1 0 1 0 (fun v => (φ k t.1 v.1 ^ 2 + φ k t.1 v.2 ^ 2) / 8 * fourFracs noneOut w k t.1 v.1) (fun _ => 0)
      (fun v => φ k t.1 v.1 ^ 2 / 8 * fourFracs noneOut w k t.1 v.1) (fun _ => 0) fun v hv => by rw [hc v hv]; ring
    linear_combination -this
  · rw [h.off h3 h4 hz (h.lt1 hk) (h.lts ht) (d.d13 hk ht), (h.z_ot hk ht).2, h.z_ot_sq hk ht, h.q_oott hk ht h4,
      h.frequencies t ht,
      lsum_zero two _ fun v hv => by rw [(h.c_oot hk hk hv).1, (h.c_oot hk hk hv).2]; ring,
      lsum_zero one (fun m => φ k t.2 m ^ 2 / 8 * _) fun m hm => by rw [z2 m hm]; ring]
    unfold xndSpec
    rw [e0]
    have a := lsum_lin two 1 0 1 0 (fun v => (φ k t.2 v.1 ^ 2 + φ k t.2 v.2 ^ 2) / 8 * fourFracs noneOut w k t.2 v.1) (fun _ => 0)
      (fun v => φ k t.1 v.1 ^ 2 / 8 * fourFracs noneOut w k t.1 v.1) (fun _ => 0) fun v hv => by
        rw [(h.c_ott hk ht hv).1, (h.c_ott hk ht hv).2, hc v hv, ff_congr (w := w) (b := t.2) rfl (h.frequencies t ht) rfl]
        linear_combination φ k t.1 v.1 ^ 2 / 8 * fourFracs noneOut w k t.1 v.1 *
          ((s v.1 * s v.1) * g_sq (h.sense t ht) + g_sq (h.sense v hv))
    have b := lsum_lin one 1 0 1 0 (fun m => φ k k m * φ t.2 t.2 m / (4 * w m)) (fun _ => 0)
      (fun m => φ k k m * φ t.1 t.1 m / (4 * w m)) (fun _ => 0) fun m hm => by rw [(dg m hm).1]
    linear_combination -a - b

theorem Threefold.x_diag {t : Nat × Nat} (ht : t ∈ two) (w0 : w t.1 ≠ 0) :
    2 * xSpec noneOut N w φ ψ ζ B t.1 t.1 + 1 / 2 * xSpec noneOut N w φ ψ ζ B t.1 t.2 =
      3 * xkkSpecL noneOut (one ++ two.map (·.1)) w φ ψ t.1 + gkkSpec noneOut one (two.map (·.1)) w φ ψ ζ B t.1 t.2 ∧
    xSpec noneOut N w φ ψ ζ B t.2 t.2 = xSpec noneOut N w φ ψ ζ B t.1 t.1 := by
  have d := h.distinct
  obtain ⟨do_, dt⟩ := h.c_diag h3 ht
  obtain ⟨q1, q2⟩ := h.q_tttt ht h4
  have wt := h.frequencies t ht
  have diag : ∀ k, xSpec noneOut N w φ ψ ζ B k k = ψ k k k k / 16 -
      ((one.map fun l => φ k k l ^ 2 * (1 / (8 * w l) + 1 / (32 * (2 * w k + w l)) - 1 / (2 * w k - w l) / 32)).sum +
        (two.map fun v => (φ k k v.1 ^ 2 + φ k k v.2 ^ 2) *
          (1 / (8 * w v.1) + 1 / (32 * (2 * w k + w v.1)) - 1 / (2 * w k - w v.1) / 32)).sum) := fun k => by
    unfold xSpec
    rw [if_pos rfl]
    unfold xkkSpec
    simp only [frac_false]
    rw [h.sum]
    congr 3
    exact List.map_congr_left fun v hv => by rw [h.frequencies v hv]; ring
  have e0 : ∀ f : Nat → ℝ, ((one ++ two.map (·.1)).map f).sum = (one.map f).sum + (two.map fun v => f v.1).sum := fun f => by
    rw [List.map_append, List.sum_append, List.map_map]; rfl
  have e0' : ∀ f : Nat → ℝ, ((two.map (·.1)).map f).sum = (two.map fun v => f v.1).sum := fun f => by
    rw [List.map_map]; rfl
  constructor
  · rw [diag, h.off h3 h4 hz (h.ltf ht) (h.lts ht) (d.d23 ht ht), wt]
    have zz := h.z_tt ht ht
    have z0 : ζ t.1 t.1 ax = 0 := by have := hz ax t.1 t.1 (h.ltf ht) (h.ltf ht); linarith
    rw [zz.2.1, z0]
    unfold xkkSpecL gkkSpec
    simp only [frac_false]
    rw [e0, e0']
    have a1 := lsum_lin one 2 (1 / 2) 3 1
      (fun l => φ t.1 t.1 l ^ 2 * (1 / (8 * w l) + 1 / (32 * (2 * w t.1 + w l)) - 1 / (2 * w t.1 - w l) / 32))
      (fun m => φ t.1 t.1 m * φ t.2 t.2 m / (4 * w m))
      (fun l => φ t.1 t.1 l ^ 2 * (1 / (8 * w l) + 1 / (32 * (2 * w t.1 + w l)) - 1 / (2 * w t.1 - w l) / 32))
      (fun l => φ t.1 t.1 l ^ 2 / 32 * (1 / (2 * w t.1 - w l) - 1 / (2 * w t.1 + w l))) fun m hm => by
        rw [(do_ m hm).1, show 1 / (32 * (2 * w t.1 + w m)) = 1 / 32 * (1 / (2 * w t.1 + w m)) by rw [one_div_mul_one_div],
          show 1 / (8 * w m) = 1 / 2 * (1 / (4 * w m)) by rw [one_div_mul_one_div]; ring_nf]
        ring
    have a2 := lsum_zero one (fun m => φ t.1 t.2 m ^ 2 / 8 * fourFracs noneOut w t.1 t.2 m) fun m hm => by
      rw [(do_ m hm).2]; ring
    have b1 := lsum_lin two 2 (1 / 2) 3 (-1)
      (fun v => (φ t.1 t.1 v.1 ^ 2 + φ t.1 t.1 v.2 ^ 2) *
          (1 / (8 * w v.1) + 1 / (32 * (2 * w t.1 + w v.1)) - 1 / (2 * w t.1 - w v.1) / 32))
      (fun v => φ t.1 t.1 v.1 * φ t.2 t.2 v.1 / (4 * w v.1) + φ t.1 t.1 v.2 * φ t.2 t.2 v.2 / (4 * w v.1)
        + (φ t.1 t.2 v.1 ^ 2 + φ t.1 t.2 v.2 ^ 2) / 8 * fourFracs noneOut w t.1 t.2 v.1)
      (fun v => φ t.1 t.1 v.1 ^ 2 * (1 / (8 * w v.1) + 1 / (32 * (2 * w t.1 + w v.1)) - 1 / (2 * w t.1 - w v.1) / 32))
      (fun v => φ t.1 t.1 v.1 ^ 2 * (1 / (8 * w v.1) + 1 / (2 * w t.1 - w v.1) / 32 - 1 / (32 * (2 * w t.1 + w v.1))))
      fun v hv => by
        obtain ⟨v1, v2, v3, v4, v5⟩ := dt v hv
        rw [v1, v2, v3, v4, v5]
        unfold fourFracs
        simp only [frac_false]
        rw [wt, show w t.1 + w t.1 + w v.1 = 2 * w t.1 + w v.1 by ring, show w t.1 - w t.1 + w v.1 = w v.1 by ring,
          show w t.1 + w t.1 - w v.1 = 2 * w t.1 - w v.1 by ring, show -w t.1 + w t.1 + w v.1 = w v.1 by ring,
          show 1 / (32 * (2 * w t.1 + w v.1)) = 1 / 32 * (1 / (2 * w t.1 + w v.1)) by rw [one_div_mul_one_div],
          show 1 / (8 * w v.1) = 1 / 8 * (1 / w v.1) by rw [one_div_mul_one_div],
          show φ t.1 t.1 v.1 * -φ t.1 t.1 v.1 / (4 * w v.1) = -φ t.1 t.1 v.1 ^ 2 / 4 * (1 / w v.1) by
            rw [div_mul_div_comm]; ring]
        ring
    rw [List.sum_map_add] at b1
    rw [a2]
    rw [div_self w0]
    linear_combination -a1 - b1 - q2 / 24
  · rw [diag, diag, q1, wt]
    have a := lsum_lin one 1 0 1 0
      (fun l => φ t.2 t.2 l ^ 2 * (1 / (8 * w l) + 1 / (32 * (2 * w t.1 + w l)) - 1 / (2 * w t.1 - w l) / 32)) (fun _ => 0)
      (fun l => φ t.1 t.1 l ^ 2 * (1 / (8 * w l) + 1 / (32 * (2 * w t.1 + w l)) - 1 / (2 * w t.1 - w l) / 32)) (fun _ => 0)
      fun m hm => by rw [(do_ m hm).1]
    have b := lsum_lin two 1 0 1 0
      (fun v => (φ t.2 t.2 v.1 ^ 2 + φ t.2 t.2 v.2 ^ 2) *
          (1 / (8 * w v.1) + 1 / (32 * (2 * w t.1 + w v.1)) - 1 / (2 * w t.1 - w v.1) / 32)) (fun _ => 0)
      (fun v => (φ t.1 t.1 v.1 ^ 2 + φ t.1 t.1 v.2 ^ 2) *
          (1 / (8 * w v.1) + 1 / (32 * (2 * w t.1 + w v.1)) - 1 / (2 * w t.1 - w v.1) / 32)) (fun _ => 0)
      fun v hv => by rw [(dt v hv).1, (dt v hv).2.1, (dt v hv).2.2.1]; ring
    linear_combination -a - b

theorem Threefold.x_two_two {t u : Nat × Nat} (ht : t ∈ two) (hu : u ∈ two) (hn : t ≠ u)
    (hc : ∀ m ∈ one, φ m t.1 u.2 = 0) :
    1 / 2 * (xSpec noneOut N w φ ψ ζ B t.1 u.1 + xSpec noneOut N w φ ψ ζ B t.1 u.2) =
      xddSpec noneOut one (two.map (·.1)) w φ ψ ζ B ax t.1 u.1 u.2 ∧
    1 / 2 * (xSpec noneOut N w φ ψ ζ B t.2 u.1 + xSpec noneOut N w φ ψ ζ B t.2 u.2) =
      xddSpec noneOut one (two.map (·.1)) w φ ψ ζ B ax t.1 u.1 u.2 := by
  have d := h.distinct
  obtain ⟨do_, dt⟩ := h.c_diag h3 ht
  obtain ⟨do', dt'⟩ := h.c_diag h3 hu
  have wt := h.frequencies t ht
  have wu := h.frequencies u hu
  have q := h.q_ttuu ht hu h4
  obtain ⟨y1, y2, y3, y4⟩ := h.z_tt ht hu
  obtain ⟨x1, x2, x3⟩ := h.z_tt2 ht hu
  have gt := g_sq (h.sense t ht)
  have gu := g_sq (h.sense u hu)
  have n11 : t.1 ≠ u.1 := fun c => hn (d.inj1 ht hu c)
  have n22 : t.2 ≠ u.2 := fun c => hn (d.inj2 ht hu c)
  have e0' : ∀ f : Nat → ℝ, ((two.map (·.1)).map f).sum = (two.map fun v => f v.1).sum := fun f => by
    rw [List.map_map]; rfl
  have c12 : ∀ m ∈ one, φ t.1 u.2 m = 0 := fun m hm => by
    rw [(h3 _ _ _ (h.ltf ht) (h.lts hu) (h.lt1 hm)).2, (h3 _ _ _ (h.ltf ht) (h.lt1 hm) (h.lts hu)).1, hc m hm]
  have F : ∀ a b m, w a = w t.1 → w b = w u.1 → fourFracs noneOut w a b m = fourFracs noneOut w t.1 u.1 m :=
    fun a b m ha hb => ff_congr ha hb rfl
  constructor
  · rw [h.off h3 h4 hz (h.ltf ht) (h.ltf hu) n11, h.off h3 h4 hz (h.ltf ht) (h.lts hu) (d.d23 ht hu), wu, y1, y2, x1]
    unfold xddSpec
    rw [e0']
    have a1 := lsum_lin one (1 / 2) (1 / 2) 1 0 (fun m => φ t.1 t.1 m * φ u.1 u.1 m / (4 * w m))
      (fun m => φ t.1 t.1 m * φ u.2 u.2 m / (4 * w m)) (fun m => φ t.1 t.1 m * φ u.1 u.1 m / (4 * w m)) (fun _ => 0) fun m hm => by
        rw [(do' m hm).1]; ring
    have a2 := lsum_lin one (1 / 2) (1 / 2) 1 0 (fun m => φ t.1 u.1 m ^ 2 / 8 * fourFracs noneOut w t.1 u.1 m)
      (fun m => φ t.1 u.2 m ^ 2 / 8 * fourFracs noneOut w t.1 u.2 m)
      (fun m => φ t.1 u.1 m ^ 2 / 16 * fourFracs noneOut w t.1 u.1 m) (fun _ => 0) fun m hm => by
        rw [c12 m hm]; ring
    have b1 := lsum_lin two (1 / 2) (1 / 2) 0 0
      (fun v => φ t.1 t.1 v.1 * φ u.1 u.1 v.1 / (4 * w v.1) + φ t.1 t.1 v.2 * φ u.1 u.1 v.2 / (4 * w v.1))
      (fun v => φ t.1 t.1 v.1 * φ u.2 u.2 v.1 / (4 * w v.1) + φ t.1 t.1 v.2 * φ u.2 u.2 v.2 / (4 * w v.1))
      (fun _ => 0) (fun _ => 0) fun v hv => by
        rw [(dt v hv).2.1, (dt' v hv).1]; ring
    have b2 := lsum_lin two (1 / 2) (1 / 2) 1 0
      (fun v => (φ t.1 u.1 v.1 ^ 2 + φ t.1 u.1 v.2 ^ 2) / 8 * fourFracs noneOut w t.1 u.1 v.1)
      (fun v => (φ t.1 u.2 v.1 ^ 2 + φ t.1 u.2 v.2 ^ 2) / 8 * fourFracs noneOut w t.1 u.2 v.1)
      (fun v => φ t.1 u.1 v.1 ^ 2 / 8 * fourFracs noneOut w t.1 u.1 v.1) (fun _ => 0) fun v hv => by
        rw [F t.1 u.2 v.1 rfl wu, (h.c_odd ht hu hv).1, (h.c_odd ht hu hv).2.1, (h.c_ttt ht hu hv).1]
        linear_combination φ t.1 u.1 v.1 ^ 2 / 16 * fourFracs noneOut w t.1 u.1 v.1 *
          ((s v.1 * s v.1) * gu + g_sq (h.sense v hv))
    linear_combination -a1 - a2 - b1 - b2
  · rw [h.off h3 h4 hz (h.lts ht) (h.ltf hu) (d.d23 hu ht).symm, h.off h3 h4 hz (h.lts ht) (h.lts hu) n22, wt, wu, y3, y4, x2, x3]
    unfold xddSpec
    rw [e0']
    have a1 := lsum_lin one (1 / 2) (1 / 2) 1 0 (fun m => φ t.2 t.2 m * φ u.1 u.1 m / (4 * w m))
      (fun m => φ t.2 t.2 m * φ u.2 u.2 m / (4 * w m)) (fun m => φ t.1 t.1 m * φ u.1 u.1 m / (4 * w m)) (fun _ => 0) fun m hm => by
        rw [(do' m hm).1, (do_ m hm).1]; ring
    have a2 := lsum_lin one (1 / 2) (1 / 2) 1 0 (fun m => φ t.2 u.1 m ^ 2 / 8 * fourFracs noneOut w t.2 u.1 m)
      (fun m => φ t.2 u.2 m ^ 2 / 8 * fourFracs noneOut w t.2 u.2 m)
      (fun m => φ t.1 u.1 m ^ 2 / 16 * fourFracs noneOut w t.1 u.1 m) (fun _ => 0) fun m hm => by
        rw [F t.2 u.2 m wt wu, (h.c_tto h3 ht hu hm).1, (h.c_tto h3 ht hu hm).2, c12 m hm]
        linear_combination φ t.1 u.1 m ^ 2 / 16 * fourFracs noneOut w t.1 u.1 m *
          ((s u.1 * s u.1) * gt + gu)
    have b1 := lsum_lin two (1 / 2) (1 / 2) 0 0
      (fun v => φ t.2 t.2 v.1 * φ u.1 u.1 v.1 / (4 * w v.1) + φ t.2 t.2 v.2 * φ u.1 u.1 v.2 / (4 * w v.1))
      (fun v => φ t.2 t.2 v.1 * φ u.2 u.2 v.1 / (4 * w v.1) + φ t.2 t.2 v.2 * φ u.2 u.2 v.2 / (4 * w v.1))
      (fun _ => 0) (fun _ => 0) fun v hv => by
        rw [(dt v hv).2.2.1, (dt' v hv).1]; ring
    have b2 := lsum_lin two (1 / 2) (1 / 2) 1 0
      (fun v => (φ t.2 u.1 v.1 ^ 2 + φ t.2 u.1 v.2 ^ 2) / 8 * fourFracs noneOut w t.2 u.1 v.1)
      (fun v => (φ t.2 u.2 v.1 ^ 2 + φ t.2 u.2 v.2 ^ 2) / 8 * fourFracs noneOut w t.2 u.2 v.1)
      (fun v => φ t.1 u.1 v.1 ^ 2 / 8 * fourFracs noneOut w t.1 u.1 v.1) (fun _ => 0) fun v hv => by
        rw [F t.2 u.1 v.1 wt rfl, F t.2 u.2 v.1 wt wu, (h.c_odd ht hu hv).2.2.1, (h.c_odd ht hu hv).2.2.2,
          (h.c_ttt ht hu hv).2.1, (h.c_ttt ht hu hv).2.2]
        linear_combination φ t.1 u.1 v.1 ^ 2 / 16 * fourFracs noneOut w t.1 u.1 v.1 *
          ((s v.1 * s v.1) * gt + g_sq (h.sense v hv) + (s u.1 * s u.1) * gt + gu)
    linear_combination -a1 - a2 - b1 - b2 + q / 8

omit h3 h4 hz in
theorem Threefold.x_kk {k : Nat} (hk : k ∈ one) : xSpec noneOut N w φ ψ ζ B k k = xkkSpecL noneOut one w φ ψ k := by
  unfold xSpec
  rw [if_pos rfl]
  unfold xkkSpec xkkSpecL
  rw [h.sum, lsum_zero two _ fun v hv => by rw [(h.c_oot hk hk hv).1, (h.c_oot hk hk hv).2]; ring, add_zero]

end

end

end Verif
