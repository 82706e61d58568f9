import Verif.Spec.Threefold
import Verif.Props.Frame
import Verif.Lemmas.Xcals

/-!
# What a threefold axis and a flip say about force constants

Helpers for C105.
-/

namespace Verif

open Finset

/-- A trilinear form. -/
noncomputable def trilin (N1 N2 N3 : Nat) (f : Nat → Nat → Nat → ℝ) (u v w : Nat → ℝ) : ℝ :=
  ∑ i ∈ range N1, ∑ j ∈ range N2, ∑ k ∈ range N3, f i j k * u i * v j * w k

/-- A combination of two basis vectors. -/
def comb (a : ℝ) (i : Nat) (b : ℝ) (j : Nat) : Nat → ℝ := fun x => a * single i x + b * single j x

section
variable {N1 N2 N3 : Nat} (f : Nat → Nat → Nat → ℝ)

theorem trilin1 {a b : ℝ} {i j : Nat} (hi : i < N1) (hj : j < N1) (v w : Nat → ℝ) : trilin N1 N2 N3 f (comb a i b j) v w =
    a * (∑ y ∈ range N2, ∑ z ∈ range N3, f i y z * v y * w z) + b * (∑ y ∈ range N2, ∑ z ∈ range N3, f j y z * v y * w z) := by
  unfold trilin comb single
  have e : ∀ x, ∑ y ∈ range N2, ∑ z ∈ range N3, f x y z * (a * (if x = i then 1 else 0) + b * (if x = j then 1 else 0)) * v y * w z =
      (if x = i then a * (∑ y ∈ range N2, ∑ z ∈ range N3, f x y z * v y * w z) else 0) +
      (if x = j then b * (∑ y ∈ range N2, ∑ z ∈ range N3, f x y z * v y * w z) else 0) := by
    intro x
    have : ∑ y ∈ range N2, ∑ z ∈ range N3, f x y z * (a * (if x = i then 1 else 0) + b * (if x = j then 1 else 0)) * v y * w z =
      (a * (if x = i then 1 else 0) + b * (if x = j then 1 else 0)) * (∑ y ∈ range N2, ∑ z ∈ range N3, f x y z * v y * w z) := by
      simp only [mul_sum]
      exact sum_congr rfl fun y _ => sum_congr rfl fun z _ => by ring
    rw [this]
    split <;> split <;> ring
  simp only [e, sum_add_distrib, sum_ite_eq', mem_range, hi, hj, if_true]

theorem bi1 {a b : ℝ} {i j : Nat} (hi : i < N2) (hj : j < N2) (g : Nat → Nat → ℝ) (w : Nat → ℝ) :
    ∑ y ∈ range N2, ∑ z ∈ range N3, g y z * comb a i b j y * w z =
    a * (∑ z ∈ range N3, g i z * w z) + b * (∑ z ∈ range N3, g j z * w z) := by
  unfold comb single
  have e : ∀ x, ∑ z ∈ range N3, g x z * (a * (if x = i then 1 else 0) + b * (if x = j then 1 else 0)) * w z =
      (if x = i then a * (∑ z ∈ range N3, g x z * w z) else 0) +
      (if x = j then b * (∑ z ∈ range N3, g x z * w z) else 0) := by
    intro x
    have : ∑ z ∈ range N3, g x z * (a * (if x = i then 1 else 0) + b * (if x = j then 1 else 0)) * w z =
      (a * (if x = i then 1 else 0) + b * (if x = j then 1 else 0)) * (∑ z ∈ range N3, g x z * w z) := by
      simp only [mul_sum]
      exact sum_congr rfl fun z _ => by ring
    rw [this]
    split <;> split <;> ring
  simp only [e, sum_add_distrib, sum_ite_eq', mem_range, hi, hj, if_true]

theorem uni1 {a b : ℝ} {i j : Nat} (hi : i < N3) (hj : j < N3) (g : Nat → ℝ) :
    ∑ z ∈ range N3, g z * comb a i b j z = a * g i + b * g j := by
  unfold comb single
  have e : ∀ x, g x * (a * (if x = i then 1 else 0) + b * (if x = j then 1 else 0)) =
      (if x = i then a * g x else 0) + (if x = j then b * g x else 0) := by
    intro x
    split <;> split <;> ring
  simp only [e, sum_add_distrib, sum_ite_eq', mem_range, hi, hj, if_true]

theorem tri_comb {a b c d e g : ℝ} {i i' j j' k k' : Nat} (hi : i < N1) (hi' : i' < N1) (hj : j < N2) (hj' : j' < N2)
    (hk : k < N3) (hk' : k' < N3) : trilin N1 N2 N3 f (comb a i b i') (comb c j d j') (comb e k g k') =
      a * (c * (e * f i j k + g * f i j k') + d * (e * f i j' k + g * f i j' k')) +
      b * (c * (e * f i' j k + g * f i' j k') + d * (e * f i' j' k + g * f i' j' k')) := by
  rw [trilin1 f hi hi', bi1 hj hj', bi1 hj hj', uni1 hk hk', uni1 hk hk', uni1 hk hk', uni1 hk hk']

end

theorem form3_trilin (N : Nat) (f : Nat → Nat → Nat → ℝ) (u v w : Nat → ℝ) : form3 N f u v w = trilin N N N f u v w := rfl

theorem coriolis_trilin (N : Nat) (f : Nat → Nat → Nat → ℝ) (u v w : Nat → ℝ) : coriolisForm N f u v w = trilin N N 3 f u v w := rfl

theorem quad_comb {N : Nat} (f : Nat → Nat → Nat → Nat → ℝ) {a b c d e g h l : ℝ} {i i' j j' k k' m m' : Nat}
    (hi : i < N) (hi' : i' < N) (hj : j < N) (hj' : j' < N) (hk : k < N) (hk' : k' < N) (hm : m < N) (hm' : m' < N) :
    form4 N f (comb a i b i') (comb c j d j') (comb e k g k') (comb h m l m') =
      a * (c * (e * (h * f i j k m + l * f i j k m') + g * (h * f i j k' m + l * f i j k' m')) +
           d * (e * (h * f i j' k m + l * f i j' k m') + g * (h * f i j' k' m + l * f i j' k' m'))) +
      b * (c * (e * (h * f i' j k m + l * f i' j k m') + g * (h * f i' j k' m + l * f i' j k' m')) +
           d * (e * (h * f i' j' k m + l * f i' j' k m') + g * (h * f i' j' k' m + l * f i' j' k' m'))) := by
  have key : form4 N f (comb a i b i') (comb c j d j') (comb e k g k') (comb h m l m') =
      trilin N N N (fun x y z => h * f x y z m + l * f x y z m') (comb a i b i') (comb c j d j') (comb e k g k') := by
    unfold form4 trilin
    refine sum_congr rfl fun x _ => sum_congr rfl fun y _ => sum_congr rfl fun z _ => ?_
    rw [uni1 hm hm' fun t => f x y z t * comb a i b i' x * comb c j d j' y * comb e k g k' z]
    ring
  rw [key, tri_comb _ hi hi' hj hj' hk hk']

theorem single_comb (k : Nat) : single k = comb 1 k 0 k := by
  funext x; simp [comb]

/-- Two indices below `n` which a third of a turn mixes, `g = ±1` way round. -/
structure PairOf (R : (Nat → ℝ) → (Nat → ℝ) → Prop) (n i j : Nat) (g : ℝ) : Prop where
  fst : i < n
  snd : j < n
  sgn : g = 1 ∨ g = -1
  t1 : R (single i) (comb (-1 / 2) i (g * (Real.sqrt 3 / 2)) j)
  t2 : R (single j) (comb (-(g * (Real.sqrt 3 / 2))) i (-1 / 2) j)

/-- An index below `n` which a third of a turn leaves as it is. -/
structure OneOf (R : (Nat → ℝ) → (Nat → ℝ) → Prop) (n k : Nat) : Prop where
  lt : k < n
  t : R (single k) (single k)

theorem root_sq : (Real.sqrt 3 / 2) * (Real.sqrt 3 / 2) = 3 / 4 := by
  have := Real.mul_self_sqrt (show (0 : ℝ) ≤ 3 by norm_num)
  linarith

theorem g_sq {g : ℝ} (h : g = 1 ∨ g = -1) : g * g = 1 := by
  rcases h with h | h <;> rw [h] <;> norm_num

section
variable {N1 N2 N3 : Nat} {f : Nat → Nat → Nat → ℝ} {R1 R2 R3 : (Nat → ℝ) → (Nat → ℝ) → Prop}
  (hinv : ∀ u v w u' v' w', R1 u u' → R2 v v' → R3 w w' → trilin N1 N2 N3 f u' v' w' = trilin N1 N2 N3 f u v w)
include hinv

theorem one_one_pair {k l i j : Nat} {g : ℝ} (hk : OneOf R1 N1 k) (hl : OneOf R2 N2 l) (hp : PairOf R3 N3 i j g) :
    f k l i = 0 ∧ f k l j = 0 := by
  have e1 := hinv _ _ _ _ _ _ hk.t hl.t hp.t1
  have e2 := hinv _ _ _ _ _ _ hk.t hl.t hp.t2
  simp only [single_comb] at e1 e2
  rw [tri_comb f hk.lt hk.lt hl.lt hl.lt hp.fst hp.snd, tri_comb f hk.lt hk.lt hl.lt hl.lt hp.fst hp.fst] at e1
  rw [tri_comb f hk.lt hk.lt hl.lt hl.lt hp.fst hp.snd, tri_comb f hk.lt hk.lt hl.lt hl.lt hp.snd hp.snd] at e2
  have hr := root_sq
  have hg := g_sq hp.sgn
  generalize Real.sqrt 3 / 2 = r at *
  constructor
  · linear_combination (-1 / 2) * e1 - g * r / 3 * e2 - g * g * f k l i / 3 * hr - f k l i / 4 * hg
  · linear_combination (-1 / 2) * e2 + g * r / 3 * e1 - g * g * f k l j / 3 * hr - f k l j / 4 * hg

theorem one_pair_one {k l i j : Nat} {g : ℝ} (hk : OneOf R1 N1 k) (hl : OneOf R3 N3 l) (hp : PairOf R2 N2 i j g) :
    f k i l = 0 ∧ f k j l = 0 := by
  have e1 := hinv _ _ _ _ _ _ hk.t hp.t1 hl.t
  have e2 := hinv _ _ _ _ _ _ hk.t hp.t2 hl.t
  simp only [single_comb] at e1 e2
  rw [tri_comb f hk.lt hk.lt hp.fst hp.snd hl.lt hl.lt, tri_comb f hk.lt hk.lt hp.fst hp.fst hl.lt hl.lt] at e1
  rw [tri_comb f hk.lt hk.lt hp.fst hp.snd hl.lt hl.lt, tri_comb f hk.lt hk.lt hp.snd hp.snd hl.lt hl.lt] at e2
  have hr := root_sq
  have hg := g_sq hp.sgn
  generalize Real.sqrt 3 / 2 = r at *
  constructor
  · linear_combination (-1 / 2) * e1 - g * r / 3 * e2 - g * g * f k i l / 3 * hr - f k i l / 4 * hg
  · linear_combination (-1 / 2) * e2 + g * r / 3 * e1 - g * g * f k j l / 3 * hr - f k j l / 4 * hg

theorem one_pair_pair {k i j i' j' : Nat} {g g' : ℝ} (hk : OneOf R1 N1 k) (hp : PairOf R2 N2 i j g)
    (hq : PairOf R3 N3 i' j' g') : f k j j' = g * g' * f k i i' ∧ f k j i' = -(g * g') * f k i j' := by
  have e1 := hinv _ _ _ _ _ _ hk.t hp.t1 hq.t1
  have e2 := hinv _ _ _ _ _ _ hk.t hp.t1 hq.t2
  have e3 := hinv _ _ _ _ _ _ hk.t hp.t2 hq.t1
  have e4 := hinv _ _ _ _ _ _ hk.t hp.t2 hq.t2
  simp only [single_comb] at e1 e2 e3 e4
  rw [tri_comb f hk.lt hk.lt hp.fst hp.snd hq.fst hq.snd, tri_comb f hk.lt hk.lt hp.fst hp.fst hq.fst hq.fst] at e1
  rw [tri_comb f hk.lt hk.lt hp.fst hp.snd hq.fst hq.snd, tri_comb f hk.lt hk.lt hp.fst hp.fst hq.snd hq.snd] at e2
  rw [tri_comb f hk.lt hk.lt hp.fst hp.snd hq.fst hq.snd, tri_comb f hk.lt hk.lt hp.snd hp.snd hq.fst hq.fst] at e3
  rw [tri_comb f hk.lt hk.lt hp.fst hp.snd hq.fst hq.snd, tri_comb f hk.lt hk.lt hp.snd hp.snd hq.snd hq.snd] at e4
  have hr := root_sq
  generalize Real.sqrt 3 / 2 = r at *
  generalize f k i i' = a at *
  generalize f k i j' = b at *
  generalize f k j i' = c at *
  generalize f k j j' = d at *
  have key : ∀ A D : ℝ, 3 / 2 * A = -r * D → 3 / 2 * D = r * A → A = 0 ∧ D = 0 := fun A D h1 h2 =>
    ⟨by linear_combination (1 / 2) * h1 - r / 3 * h2 - A / 3 * hr, by linear_combination (1 / 2) * h2 + r / 3 * h1 - D / 3 * hr⟩
  have key' : ∀ A D : ℝ, 3 / 2 * A = r * D → 3 / 2 * D = -r * A → A = 0 ∧ D = 0 := fun A D h1 h2 =>
    ⟨by linear_combination (1 / 2) * h1 + r / 3 * h2 - A / 3 * hr, by linear_combination (1 / 2) * h2 - r / 3 * h1 - D / 3 * hr⟩
  rcases hp.sgn with h1 | h1 <;> rcases hq.sgn with h2 | h2 <;> subst h1 <;> subst h2
  · obtain ⟨k1, k2⟩ := key (a - d) (b + c) (by linear_combination e4 - e1 + (d - a) * hr) (by linear_combination -e2 - e3 - (b + c) * hr)
    exact ⟨by linarith, by linarith⟩
  · obtain ⟨k1, k2⟩ := key' (a + d) (b - c) (by linear_combination -e4 - e1 - (d + a) * hr) (by linear_combination -e2 + e3 - (b - c) * hr)
    exact ⟨by linarith, by linarith⟩
  · obtain ⟨k1, k2⟩ := key (a + d) (b - c) (by linear_combination -e4 - e1 - (d + a) * hr) (by linear_combination -e2 + e3 - (b - c) * hr)
    exact ⟨by linarith, by linarith⟩
  · obtain ⟨k1, k2⟩ := key' (a - d) (b + c) (by linear_combination e4 - e1 + (d - a) * hr) (by linear_combination -e2 - e3 - (b + c) * hr)
    exact ⟨by linarith, by linarith⟩

theorem pair_pair_one {k i j i' j' : Nat} {g g' : ℝ} (hk : OneOf R3 N3 k) (hp : PairOf R1 N1 i j g)
    (hq : PairOf R2 N2 i' j' g') : f j j' k = g * g' * f i i' k ∧ f j i' k = -(g * g') * f i j' k := by
  have e1 := hinv _ _ _ _ _ _ hp.t1 hq.t1 hk.t
  have e2 := hinv _ _ _ _ _ _ hp.t1 hq.t2 hk.t
  have e3 := hinv _ _ _ _ _ _ hp.t2 hq.t1 hk.t
  have e4 := hinv _ _ _ _ _ _ hp.t2 hq.t2 hk.t
  simp only [single_comb] at e1 e2 e3 e4
  rw [tri_comb f hp.fst hp.snd hq.fst hq.snd hk.lt hk.lt, tri_comb f hp.fst hp.fst hq.fst hq.fst hk.lt hk.lt] at e1
  rw [tri_comb f hp.fst hp.snd hq.fst hq.snd hk.lt hk.lt, tri_comb f hp.fst hp.fst hq.snd hq.snd hk.lt hk.lt] at e2
  rw [tri_comb f hp.fst hp.snd hq.fst hq.snd hk.lt hk.lt, tri_comb f hp.snd hp.snd hq.fst hq.fst hk.lt hk.lt] at e3
  rw [tri_comb f hp.fst hp.snd hq.fst hq.snd hk.lt hk.lt, tri_comb f hp.snd hp.snd hq.snd hq.snd hk.lt hk.lt] at e4
  have hr := root_sq
  generalize Real.sqrt 3 / 2 = r at *
  generalize f i i' k = a at *
  generalize f i j' k = b at *
  generalize f j i' k = c at *
  generalize f j j' k = d at *
  have key : ∀ A D : ℝ, 3 / 2 * A = -r * D → 3 / 2 * D = r * A → A = 0 ∧ D = 0 := fun A D h1 h2 =>
    ⟨by linear_combination (1 / 2) * h1 - r / 3 * h2 - A / 3 * hr, by linear_combination (1 / 2) * h2 + r / 3 * h1 - D / 3 * hr⟩
  have key' : ∀ A D : ℝ, 3 / 2 * A = r * D → 3 / 2 * D = -r * A → A = 0 ∧ D = 0 := fun A D h1 h2 =>
    ⟨by linear_combination (1 / 2) * h1 + r / 3 * h2 - A / 3 * hr, by linear_combination (1 / 2) * h2 - r / 3 * h1 - D / 3 * hr⟩
  rcases hp.sgn with h1 | h1 <;> rcases hq.sgn with h2 | h2 <;> subst h1 <;> subst h2
  · obtain ⟨k1, k2⟩ := key (a - d) (b + c) (by linear_combination e4 - e1 + (d - a) * hr) (by linear_combination -e2 - e3 - (b + c) * hr)
    exact ⟨by linarith, by linarith⟩
  · obtain ⟨k1, k2⟩ := key' (a + d) (b - c) (by linear_combination -e4 - e1 - (d + a) * hr) (by linear_combination -e2 + e3 - (b - c) * hr)
    exact ⟨by linarith, by linarith⟩
  · obtain ⟨k1, k2⟩ := key (a + d) (b - c) (by linear_combination -e4 - e1 - (d + a) * hr) (by linear_combination -e2 + e3 - (b - c) * hr)
    exact ⟨by linarith, by linarith⟩
  · obtain ⟨k1, k2⟩ := key' (a - d) (b + c) (by linear_combination e4 - e1 + (d - a) * hr) (by linear_combination -e2 - e3 - (b + c) * hr)
    exact ⟨by linarith, by linarith⟩

theorem pair_pair_pair {i j i' j' i2 j2 : Nat} {g g' g2 : ℝ} (hp : PairOf R1 N1 i j g)
    (hq : PairOf R2 N2 i' j' g') (hs : PairOf R3 N3 i2 j2 g2) (z1 : f i i' j2 = 0) (z2 : f i j' i2 = 0)
    (z3 : f j i' i2 = 0) (z4 : f j j' j2 = 0) :
    f i j' j2 = -(g' * g2) * f i i' i2 ∧ f j i' j2 = -(g * g2) * f i i' i2 ∧ f j j' i2 = -(g * g') * f i i' i2 := by
  have e1 := hinv _ _ _ _ _ _ hp.t1 hq.t1 hs.t1
  have e2 := hinv _ _ _ _ _ _ hp.t1 hq.t2 hs.t2
  have e3 := hinv _ _ _ _ _ _ hp.t2 hq.t1 hs.t2
  have e4 := hinv _ _ _ _ _ _ hp.t2 hq.t2 hs.t1
  simp only [single_comb] at e1 e2 e3 e4
  rw [tri_comb f hp.fst hp.snd hq.fst hq.snd hs.fst hs.snd, tri_comb f hp.fst hp.fst hq.fst hq.fst hs.fst hs.fst,
    z1, z2, z3, z4] at e1
  rw [tri_comb f hp.fst hp.snd hq.fst hq.snd hs.fst hs.snd, tri_comb f hp.fst hp.fst hq.snd hq.snd hs.snd hs.snd,
    z1, z2, z3, z4] at e2
  rw [tri_comb f hp.fst hp.snd hq.fst hq.snd hs.fst hs.snd, tri_comb f hp.snd hp.snd hq.fst hq.fst hs.snd hs.snd,
    z1, z2, z3, z4] at e3
  rw [tri_comb f hp.fst hp.snd hq.fst hq.snd hs.fst hs.snd, tri_comb f hp.snd hp.snd hq.snd hq.snd hs.fst hs.fst,
    z1, z2, z3, z4] at e4
  have hr := root_sq
  generalize Real.sqrt 3 / 2 = r at *
  generalize f i i' i2 = x at *
  generalize f i j' j2 = a at *
  generalize f j i' j2 = b at *
  generalize f j j' i2 = d at *
  have key : ∀ a b d : ℝ, 3 * x = -(a + b + d) → 3 * a = -x + b + d → 3 * b = -x + a + d → 3 * d = -x + a + b →
      a = -x ∧ b = -x ∧ d = -x := fun a b d h1 h2 h3 h4 => ⟨by linarith, by linarith, by linarith⟩
  have hp1 := g_sq hp.sgn
  have hq1 := g_sq hq.sgn
  have hs1 := g_sq hs.sgn
  obtain ⟨k1, k2, k3⟩ := key (g' * g2 * a) (g * g2 * b) (g * g' * d)
    (by linear_combination (-8 / 3) * e1 - (4 / 3) * (g' * g2 * a + g * g2 * b + g * g' * d) * hr)
    (by linear_combination (-8 / 3) * g' * g2 * e2 + (4 / 3) * (-(g' * g' * (g2 * g2)) * x + g' * g' * g * g2 * b + g2 * g2 * g * g' * d) * hr
          + (-x * g2 * g2 + g * g2 * b) * hq1 + (-x + g * g' * d) * hs1)
    (by linear_combination (-8 / 3) * g * g2 * e3 + (4 / 3) * (-(g * g * (g2 * g2)) * x + g * g * g' * g2 * a + g2 * g2 * g * g' * d) * hr
          + (-x * g2 * g2 + g' * g2 * a) * hp1 + (-x + g * g' * d) * hs1)
    (by linear_combination (-8 / 3) * g * g' * e4 + (4 / 3) * (-(g * g * (g' * g')) * x + g * g * g' * g2 * a + g' * g' * g * g2 * b) * hr
          + (-x * g' * g' + g' * g2 * a) * hp1 + (-x + g * g2 * b) * hq1)
  exact ⟨by linear_combination g' * g2 * k1 - a * g2 * g2 * hq1 - a * hs1,
    by linear_combination g * g2 * k2 - b * g2 * g2 * hp1 - b * hs1,
    by linear_combination g * g' * k3 - d * g' * g' * hp1 - d * hq1⟩

end

theorem axisOne : OneOf AxesThirdTurn 3 2 := by
  refine ⟨by norm_num, ?_, ?_, ?_⟩ <;> simp [single]

/-- The sense in which a third of a turn takes axis `ax` to the other perpendicular axis. -/
noncomputable def axisSense (ax : Nat) : ℝ := if ax = 0 then 1 else -1

theorem axisPair {ax : Nat} (hax : ax ≤ 1) : PairOf AxesThirdTurn 3 ax (1 - ax) (axisSense ax) := by
  obtain rfl | rfl : ax = 0 ∨ ax = 1 := by omega
  all_goals
    refine ⟨by norm_num, by norm_num, by simp [axisSense], ⟨?_, ?_, ?_⟩, ?_, ?_, ?_⟩ <;> simp [single, comb, axisSense] <;> norm_num

section
variable {N : Nat} {one : List Nat} {two : List (Nat × Nat)} {s p : Nat → ℝ} {ax : Nat} {w : Nat → ℝ}
  {φ : Nat → Nat → Nat → ℝ} {ψ : Nat → Nat → Nat → Nat → ℝ} {ζ : Nat → Nat → Nat → ℝ} {B : Nat → ℝ}
  (h : Threefold N one two s p ax w φ ψ ζ B)
include h

theorem Threefold.distinct : DistinctModes one two := h.modes.nodup_iff.2 List.nodup_range

theorem Threefold.lt1 {k : Nat} (hk : k ∈ one) : k < N :=
  List.mem_range.1 (h.modes.mem_iff.1 (by simp [hk]))

theorem Threefold.ltf {t : Nat × Nat} (ht : t ∈ two) : t.1 < N :=
  List.mem_range.1 (h.modes.mem_iff.1 (List.mem_append_left _ (List.mem_append_right _ (List.mem_map_of_mem ht))))

theorem Threefold.lts {t : Nat × Nat} (ht : t ∈ two) : t.2 < N :=
  List.mem_range.1 (h.modes.mem_iff.1 (List.mem_append_right _ (List.mem_map_of_mem ht)))

/-- A sum over all modes. -/
theorem Threefold.sum (g : Nat → ℝ) :
    ∑ i ∈ range N, g i = (one.map g).sum + (two.map fun t => g t.1 + g t.2).sum := by
  have e : ((one ++ two.map (·.1) ++ two.map (·.2)).map g).sum = ((List.range N).map g).sum :=
    (h.modes.map g).sum_eq
  have e' : ((List.range N).map g).sum = ∑ i ∈ range N, g i := by
    rw [← List.sum_toFinset g List.nodup_range]
    congr 1
    ext i
    simp
  rw [← e', ← e, List.map_append, List.map_append, List.sum_append, List.sum_append, List.map_map, List.map_map, add_assoc,
    ← List.sum_map_add]
  rfl

theorem Threefold.oneOf {k : Nat} (hk : k ∈ one) : OneOf (ThirdTurn one two s) N k := by
  refine ⟨h.lt1 hk, fun _ _ => rfl, fun t ht => ?_, fun t ht => ?_⟩ <;>
    simp [single, (h.distinct.d12 hk ht).symm, (h.distinct.d13 hk ht).symm]

theorem Threefold.pairOf {t : Nat × Nat} (ht : t ∈ two) : PairOf (ThirdTurn one two s) N t.1 t.2 (s t.1) := by
  have d := h.distinct
  have n1 : ∀ u ∈ two, u ≠ t → u.1 ≠ t.1 := fun u hu e c => e (d.inj1 hu ht c)
  have n2 : ∀ u ∈ two, u ≠ t → u.2 ≠ t.2 := fun u hu e c => e (d.inj2 hu ht c)
  have n3 : ∀ u ∈ two, u.1 ≠ t.2 := fun u hu => d.d23 hu ht
  have n4 : ∀ u ∈ two, u.2 ≠ t.1 := fun u hu => (d.d23 ht hu).symm
  refine ⟨h.ltf ht, h.lts ht, h.sense t ht, ⟨fun k hk => ?_, fun u hu => ?_, fun u hu => ?_⟩,
    ⟨fun k hk => ?_, fun u hu => ?_, fun u hu => ?_⟩⟩
  · simp [single, comb, d.d12 hk ht, d.d13 hk ht]
  · by_cases e : u = t
    · subst e; simp [single, comb, n3 u hu, n4 u hu]
    · simp [single, comb, n1 u hu e, n3 u hu, n4 u hu]
  · by_cases e : u = t
    · subst e; simp [single, comb, n4 u hu]
    · simp [single, comb, n1 u hu e, n2 u hu e, n4 u hu]
  · simp [single, comb, d.d12 hk ht, d.d13 hk ht]
  · by_cases e : u = t
    · subst e; simp [single, comb, n3 u hu]
    · simp [single, comb, n1 u hu e, n2 u hu e, n3 u hu]
  · by_cases e : u = t
    · subst e; simp [single, comb, n3 u hu, n4 u hu]; norm_num
    · simp [single, comb, n2 u hu e, n3 u hu, n4 u hu]

theorem Threefold.flip3 {i j k : Nat} (hi : i < N) (hj : j < N) (hk : k < N) : φ i j k = p i * p j * p k * φ i j k := by
  have e := h.cubicFlip (single i) (single j) (single k)
  have c : ∀ x, (fun y => p y * single x y) = comb (p x) x 0 x := fun x => by
    funext y; by_cases hy : y = x <;> simp [single, comb, hy]
  rw [c, c, c, form3_trilin, tri_comb φ hi hi hj hj hk hk, form3_single N φ hi hj hk] at e
  linear_combination -e

theorem Threefold.flip4 {i j k l : Nat} (hi : i < N) (hj : j < N) (hk : k < N) (hl : l < N) :
    ψ i j k l = p i * p j * p k * p l * ψ i j k l := by
  have e := h.quarticFlip (single i) (single j) (single k) (single l)
  have c : ∀ x, (fun y => p y * single x y) = comb (p x) x 0 x := fun x => by
    funext y; by_cases hy : y = x <;> simp [single, comb, hy]
  rw [c, c, c, c, quad_comb ψ hi hi hj hj hk hk hl hl, form4_single N ψ hi hj hk hl] at e
  linear_combination -e

theorem Threefold.flipz {i j a : Nat} (hi : i < N) (hj : j < N) (ha : a < 3) :
    ζ i j a = p i * p j * (if a = ax then 1 else -1) * ζ i j a := by
  have e := h.coriolisFlip (single i) (single j) (single a)
  have c : ∀ x, (fun y => p y * single x y) = comb (p x) x 0 x := fun x => by
    funext y; by_cases hy : y = x <;> simp [single, comb, hy]
  have c' : (fun y => if y = ax then single a y else -single a y) = comb (if a = ax then 1 else -1) a 0 a := by
    funext y; by_cases hy : y = a <;> by_cases hx : y = ax <;> simp_all [single, comb]
  rw [c, c, c', coriolis_trilin, tri_comb ζ hi hi hj hj ha ha, coriolis_trilin] at e
  simp only [single_comb] at e
  rw [tri_comb ζ hi hi hj hj ha ha] at e
  linear_combination -e

/-! ### Cubic constants -/

theorem Threefold.c_oot {k l : Nat} (hk : k ∈ one) (hl : l ∈ one) {t : Nat × Nat} (ht : t ∈ two) :
    φ k l t.1 = 0 ∧ φ k l t.2 = 0 :=
  one_one_pair h.cubicTurn (h.oneOf hk) (h.oneOf hl) (h.pairOf ht)

theorem Threefold.c_ott {k : Nat} (hk : k ∈ one) {t u : Nat × Nat} (ht : t ∈ two) (hu : u ∈ two) :
    φ k t.2 u.2 = s t.1 * s u.1 * φ k t.1 u.1 ∧ φ k t.2 u.1 = -(s t.1 * s u.1) * φ k t.1 u.2 :=
  one_pair_pair h.cubicTurn (h.oneOf hk) (h.pairOf ht) (h.pairOf hu)

theorem Threefold.c_odd {t u v : Nat × Nat} (ht : t ∈ two) (hu : u ∈ two) (hv : v ∈ two) :
    φ t.1 u.1 v.2 = 0 ∧ φ t.1 u.2 v.1 = 0 ∧ φ t.2 u.1 v.1 = 0 ∧ φ t.2 u.2 v.2 = 0 := by
  obtain ⟨t1, t2⟩ := h.components t ht
  obtain ⟨u1, u2⟩ := h.components u hu
  obtain ⟨v1, v2⟩ := h.components v hv
  refine ⟨?_, ?_, ?_, ?_⟩
  · have e := h.flip3 (h.ltf ht) (h.ltf hu) (h.lts hv); rw [t1, u1, v2] at e; linarith
  · have e := h.flip3 (h.ltf ht) (h.lts hu) (h.ltf hv); rw [t1, u2, v1] at e; linarith
  · have e := h.flip3 (h.lts ht) (h.ltf hu) (h.ltf hv); rw [t2, u1, v1] at e; linarith
  · have e := h.flip3 (h.lts ht) (h.lts hu) (h.lts hv); rw [t2, u2, v2] at e; linarith

theorem Threefold.c_ttt {t u v : Nat × Nat} (ht : t ∈ two) (hu : u ∈ two) (hv : v ∈ two) :
    φ t.1 u.2 v.2 = -(s u.1 * s v.1) * φ t.1 u.1 v.1 ∧ φ t.2 u.1 v.2 = -(s t.1 * s v.1) * φ t.1 u.1 v.1 ∧
    φ t.2 u.2 v.1 = -(s t.1 * s u.1) * φ t.1 u.1 v.1 := by
  obtain ⟨z1, z2, z3, z4⟩ := h.c_odd ht hu hv
  exact pair_pair_pair h.cubicTurn (h.pairOf ht) (h.pairOf hu) (h.pairOf hv) z1 z2 z3 z4

/-! ### Coriolis constants -/

theorem Threefold.z_oo {k l : Nat} (hk : k ∈ one) (hl : l ∈ one) : ζ k l 0 = 0 ∧ ζ k l 1 = 0 := by
  have e := one_one_pair h.coriolisTurn (h.oneOf hk) (h.oneOf hl) (axisPair h.axis)
  obtain hx | hx : ax = 0 ∨ ax = 1 := by have := h.axis; omega
  · rw [hx] at e; exact e
  · rw [hx] at e; exact ⟨e.2, e.1⟩

theorem Threefold.z_ot {k : Nat} (hk : k ∈ one) {t : Nat × Nat} (ht : t ∈ two) : ζ k t.1 2 = 0 ∧ ζ k t.2 2 = 0 :=
  one_pair_one h.coriolisTurn (h.oneOf hk) axisOne (h.pairOf ht)

theorem Threefold.z_ot_sq {k : Nat} (hk : k ∈ one) {t : Nat × Nat} (ht : t ∈ two) :
    ζ k t.2 0 ^ 2 + ζ k t.2 1 ^ 2 = ζ k t.1 0 ^ 2 + ζ k t.1 1 ^ 2 := by
  have e := one_pair_pair h.coriolisTurn (h.oneOf hk) (h.pairOf ht) (axisPair h.axis)
  have g1 := g_sq (h.sense t ht)
  obtain hx | hx : ax = 0 ∨ ax = 1 := by have := h.axis; omega
  · rw [hx] at e
    simp only [axisSense, if_true, Nat.sub_zero] at e
    rw [e.1, e.2]
    linear_combination (ζ k t.1 0 ^ 2 + ζ k t.1 1 ^ 2) * g1
  · rw [hx] at e
    simp only [axisSense, one_ne_zero, if_false, Nat.sub_self] at e
    rw [e.1, e.2]
    linear_combination (ζ k t.1 0 ^ 2 + ζ k t.1 1 ^ 2) * g1

/-- Between two pairs the Coriolis constants about the axis couple first with second components only. -/
theorem Threefold.z_tt2 {t u : Nat × Nat} (ht : t ∈ two) (hu : u ∈ two) :
    ζ t.1 u.1 2 = 0 ∧ ζ t.2 u.2 2 = 0 ∧ ζ t.2 u.1 2 ^ 2 = ζ t.1 u.2 2 ^ 2 := by
  have e := pair_pair_one h.coriolisTurn axisOne (h.pairOf ht) (h.pairOf hu)
  have a := h.flipz (h.ltf ht) (h.ltf hu) (show 2 < 3 by norm_num)
  rw [(h.components t ht).1, (h.components u hu).1, if_neg (by have := h.axis; omega)] at a
  have a0 : ζ t.1 u.1 2 = 0 := by linarith
  refine ⟨a0, by rw [e.1, a0, mul_zero], ?_⟩
  rw [e.2]
  linear_combination ζ t.1 u.2 2 ^ 2 * (s u.1 * s u.1) * g_sq (h.sense t ht) + ζ t.1 u.2 2 ^ 2 * g_sq (h.sense u hu)

/-- And those about the perpendicular axes are all determined by one of them. -/
theorem Threefold.z_tt {t u : Nat × Nat} (ht : t ∈ two) (hu : u ∈ two) :
    ζ t.1 u.1 0 ^ 2 + ζ t.1 u.1 1 ^ 2 = ζ t.1 u.1 ax ^ 2 ∧ ζ t.1 u.2 0 ^ 2 + ζ t.1 u.2 1 ^ 2 = ζ t.1 u.1 ax ^ 2 ∧
    ζ t.2 u.1 0 ^ 2 + ζ t.2 u.1 1 ^ 2 = ζ t.1 u.1 ax ^ 2 ∧ ζ t.2 u.2 0 ^ 2 + ζ t.2 u.2 1 ^ 2 = ζ t.1 u.1 ax ^ 2 := by
  obtain ⟨t1, t2⟩ := h.components t ht
  obtain ⟨u1, u2⟩ := h.components u hu
  have hax := h.axis
  have hb : 1 - ax < 3 := by omega
  have hn : 1 - ax ≠ ax := by omega
  have z1 : ζ t.1 u.1 (1 - ax) = 0 := by
    have e := h.flipz (h.ltf ht) (h.ltf hu) hb; rw [t1, u1, if_neg hn] at e; linarith
  have z2 : ζ t.1 u.2 ax = 0 := by
    have e := h.flipz (h.ltf ht) (h.lts hu) (show ax < 3 by omega); rw [t1, u2, if_pos rfl] at e; linarith
  have z3 : ζ t.2 u.1 ax = 0 := by
    have e := h.flipz (h.lts ht) (h.ltf hu) (show ax < 3 by omega); rw [t2, u1, if_pos rfl] at e; linarith
  have z4 : ζ t.2 u.2 (1 - ax) = 0 := by
    have e := h.flipz (h.lts ht) (h.lts hu) hb; rw [t2, u2, if_neg hn] at e; linarith
  obtain ⟨e1, e2, e3⟩ := pair_pair_pair h.coriolisTurn (h.pairOf ht) (h.pairOf hu) (axisPair h.axis) z1 z2 z3 z4
  have both : ∀ f : Nat → ℝ, f 0 ^ 2 + f 1 ^ 2 = f ax ^ 2 + f (1 - ax) ^ 2 := fun f => by
    obtain hx | hx : ax = 0 ∨ ax = 1 := by omega
    · rw [hx]
    · rw [hx]; exact add_comm _ _
  have g1 := g_sq (h.sense t ht)
  have g2 := g_sq (h.sense u hu)
  have g3 := g_sq (axisPair h.axis).sgn
  refine ⟨?_, ?_, ?_, ?_⟩
  · rw [both, z1]; ring
  · rw [both, z2, e1]
    linear_combination ζ t.1 u.1 ax ^ 2 * (axisSense ax * axisSense ax) * g2 + ζ t.1 u.1 ax ^ 2 * g3
  · rw [both, z3, e2]
    linear_combination ζ t.1 u.1 ax ^ 2 * (axisSense ax * axisSense ax) * g1 + ζ t.1 u.1 ax ^ 2 * g3
  · rw [both, z4, e3]
    linear_combination ζ t.1 u.1 ax ^ 2 * (s u.1 * s u.1) * g1 + ζ t.1 u.1 ax ^ 2 * g2

/-! ### Quartic constants -/

theorem Threefold.q_oott {k : Nat} (hk : k ∈ one) {t : Nat × Nat} (ht : t ∈ two) (h4 : Symm4 N ψ) :
    ψ k k t.2 t.2 = ψ k k t.1 t.1 := by
  have a := h.oneOf hk
  have b := h.pairOf ht
  have z : ψ k k t.1 t.2 = 0 := by
    have e := h.flip4 a.lt a.lt b.fst b.snd
    rw [(h.components t ht).1, (h.components t ht).2] at e
    have := g_sq (h.sign k a.lt)
    linear_combination (1 / 2) * e - ψ k k t.1 t.2 / 2 * this
  have z' : ψ k k t.2 t.1 = 0 := by rw [← z]; exact (h4 _ _ _ _ a.lt a.lt b.snd b.fst).2.2
  have e := h.quarticTurn _ _ _ _ _ _ _ _ a.t a.t b.t1 b.t1
  simp only [single_comb] at e
  rw [quad_comb ψ a.lt a.lt a.lt a.lt b.fst b.snd b.fst b.snd, quad_comb ψ a.lt a.lt a.lt a.lt b.fst b.fst b.fst b.fst,
    z, z'] at e
  have g := g_sq b.sgn
  have r := root_sq
  linear_combination (4 / 3) * e - ψ k k t.2 t.2 * g - (4 / 3) * s t.1 * s t.1 * ψ k k t.2 t.2 * r

theorem Threefold.q_ttuu {t u : Nat × Nat} (ht : t ∈ two) (hu : u ∈ two) (h4 : Symm4 N ψ) :
    ψ t.2 t.2 u.1 u.1 + ψ t.2 t.2 u.2 u.2 = ψ t.1 t.1 u.1 u.1 + ψ t.1 t.1 u.2 u.2 := by
  have a := h.pairOf ht
  have b := h.pairOf hu
  have e := h.quarticTurn _ _ _ _ _ _ _ _ a.t1 a.t1 b.t1 b.t1
  have e' := h.quarticTurn _ _ _ _ _ _ _ _ a.t1 a.t1 b.t2 b.t2
  simp only [single_comb] at e e'
  rw [quad_comb ψ a.fst a.snd a.fst a.snd b.fst b.snd b.fst b.snd, quad_comb ψ a.fst a.fst a.fst a.fst b.fst b.fst b.fst b.fst] at e
  rw [quad_comb ψ a.fst a.snd a.fst a.snd b.fst b.snd b.fst b.snd, quad_comb ψ a.fst a.fst a.fst a.fst b.snd b.snd b.snd b.snd] at e'
  obtain ⟨t1, t2⟩ := h.components t ht
  obtain ⟨u1, u2⟩ := h.components u hu
  have y1 : ψ t.1 t.2 u.1 u.1 = 0 := by
    have e := h.flip4 a.fst a.snd b.fst b.fst; rw [t1, t2, u1] at e; linarith
  have y2 : ψ t.2 t.1 u.1 u.1 = 0 := by
    have e := h.flip4 a.snd a.fst b.fst b.fst; rw [t1, t2, u1] at e; linarith
  have y3 : ψ t.1 t.2 u.2 u.2 = 0 := by
    have e := h.flip4 a.fst a.snd b.snd b.snd; rw [t1, t2, u2] at e; linarith
  have y4 : ψ t.2 t.1 u.2 u.2 = 0 := by
    have e := h.flip4 a.snd a.fst b.snd b.snd; rw [t1, t2, u2] at e; linarith
  rw [y1, y2, y3, y4] at e e'
  have g := g_sq a.sgn
  have g' := g_sq b.sgn
  have r := root_sq
  generalize Real.sqrt 3 / 2 = c at *
  linear_combination (4 / 3) * e + (4 / 3) * e'
    - (4 / 3) * (1 / 4 * ψ t.1 t.1 u.2 u.2 + s t.1 * s t.1 * c * c * ψ t.2 t.2 u.2 u.2 + 1 / 4 * ψ t.1 t.1 u.1 u.1
        + s t.1 * s t.1 * c * c * ψ t.2 t.2 u.1 u.1) * (c * c * g' + r)
    - (4 / 3) * (ψ t.2 t.2 u.1 u.1 + ψ t.2 t.2 u.2 u.2) * (c * c * g + r)

theorem Threefold.q_tttt {t : Nat × Nat} (ht : t ∈ two) (h4 : Symm4 N ψ) :
    ψ t.2 t.2 t.2 t.2 = ψ t.1 t.1 t.1 t.1 ∧ ψ t.1 t.1 t.1 t.1 = 3 * ψ t.1 t.1 t.2 t.2 := by
  have e0 := h.q_ttuu ht ht h4
  have a := h.pairOf ht
  have m : ψ t.2 t.2 t.1 t.1 = ψ t.1 t.1 t.2 t.2 := by
    rw [(h4 _ _ _ _ a.snd a.snd a.fst a.fst).2.1, (h4 _ _ _ _ a.snd a.fst a.snd a.fst).1,
      (h4 _ _ _ _ a.fst a.snd a.snd a.fst).2.2, (h4 _ _ _ _ a.fst a.snd a.fst a.snd).2.1]
  have m1 : ψ t.1 t.2 t.1 t.2 = ψ t.1 t.1 t.2 t.2 := (h4 _ _ _ _ a.fst a.snd a.fst a.snd).2.1
  have m2 : ψ t.1 t.2 t.2 t.1 = ψ t.1 t.1 t.2 t.2 := by rw [(h4 _ _ _ _ a.fst a.snd a.snd a.fst).2.2, m1]
  have m3 : ψ t.2 t.1 t.2 t.1 = ψ t.1 t.1 t.2 t.2 := by rw [(h4 _ _ _ _ a.snd a.fst a.snd a.fst).1, m2]
  have m4 : ψ t.2 t.1 t.1 t.2 = ψ t.1 t.1 t.2 t.2 := by rw [(h4 _ _ _ _ a.snd a.fst a.fst a.snd).1, m1]
  have d : ψ t.2 t.2 t.2 t.2 = ψ t.1 t.1 t.1 t.1 := by linarith
  refine ⟨d, ?_⟩
  have e := h.quarticTurn _ _ _ _ _ _ _ _ a.t1 a.t1 a.t1 a.t1
  simp only [single_comb] at e
  rw [quad_comb ψ a.fst a.snd a.fst a.snd a.fst a.snd a.fst a.snd, quad_comb ψ a.fst a.fst a.fst a.fst a.fst a.fst a.fst a.fst] at e
  obtain ⟨t1, t2⟩ := h.components t ht
  have y : ∀ i j k l, i < N → j < N → k < N → l < N → p i * p j * p k * p l = -1 → ψ i j k l = 0 := fun i j k l h1 h2 h3 h4 hh => by
    have e := h.flip4 h1 h2 h3 h4; rw [hh] at e; linarith
  rw [y t.1 t.1 t.1 t.2 a.fst a.fst a.fst a.snd (by rw [t1, t2]; norm_num),
    y t.1 t.1 t.2 t.1 a.fst a.fst a.snd a.fst (by rw [t1, t2]; norm_num),
    y t.1 t.2 t.1 t.1 a.fst a.snd a.fst a.fst (by rw [t1, t2]; norm_num),
    y t.2 t.1 t.1 t.1 a.snd a.fst a.fst a.fst (by rw [t1, t2]; norm_num),
    y t.2 t.2 t.2 t.1 a.snd a.snd a.snd a.fst (by rw [t1, t2]; norm_num),
    y t.2 t.2 t.1 t.2 a.snd a.snd a.fst a.snd (by rw [t1, t2]; norm_num),
    y t.2 t.1 t.2 t.2 a.snd a.fst a.snd a.snd (by rw [t1, t2]; norm_num),
    y t.1 t.2 t.2 t.2 a.fst a.snd a.snd a.snd (by rw [t1, t2]; norm_num), m, m1, m2, m3, m4, d] at e
  have g := g_sq a.sgn
  have r := root_sq
  generalize Real.sqrt 3 / 2 = c at *
  have k : (s t.1 * c) * (s t.1 * c) = 3 / 4 := by linear_combination c * c * g + r
  generalize s t.1 * c = q at *
  linear_combination (-8 / 3) * e + (4 * ψ t.1 t.1 t.2 t.2 + (8 / 3) * (q * q + 3 / 4) * ψ t.1 t.1 t.1 t.1) * k

end

end Verif
