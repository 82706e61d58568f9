import Verif.Lemmas.Legs
import Verif.Lemmas.LadderEnergy

/-!
# Raising and lowering operators on occupation numbers

Helpers for C108.
-/

namespace Verif.Osc

open Finset

variable {σ : Type} [Fintype σ] [DecidableEq σ]

/-- A raising (`true`) or lowering operator of a mode. -/
abbrev Leg (σ : Type) := σ × Bool

/-- The change of the occupation numbers. -/
def net (l : Leg σ) : σ → ℤ := if l.2 then unit l.1 else -unit l.1

/-- The factor of the amplitude. -/
def co (l : Leg σ) (m : σ → ℤ) : ℝ := if l.2 then 1 else (m l.1 : ℝ) + 1

/-- The operator. -/
def lop (l : Leg σ) : Module.End ℝ ((σ → ℤ) → ℝ) where
  toFun f m := co l m * f (m - net l)
  map_add' f g := by funext m; simp only [Pi.add_apply]; ring
  map_smul' c f := by funext m; simp only [Pi.smul_apply, smul_eq_mul, RingHom.id_apply]; ring

theorem lop_apply (l : Leg σ) (f : (σ → ℤ) → ℝ) (m : σ → ℤ) : lop l f m = co l m * f (m - net l) := rfl

/-- The commutator of two of them. -/
def sg (l l' : Leg σ) : ℝ := if l.1 = l'.1 then (if l.2 then (if l'.2 then 0 else -1) else (if l'.2 then 1 else 0)) else 0

theorem lop_comm (l l' : Leg σ) : lop l * lop l' - lop l' * lop l = sg l l' • 1 := by
  refine LinearMap.ext fun f => funext fun m => ?_
  simp only [LinearMap.sub_apply, Module.End.mul_apply, LinearMap.smul_apply, Module.End.one_apply, Pi.sub_apply,
    Pi.smul_apply, smul_eq_mul, lop_apply]
  have e : m - net l' - net l = m - net l - net l' := by abel
  rw [e]
  obtain ⟨i, u⟩ := l
  obtain ⟨j, v⟩ := l'
  by_cases h : i = j
  · subst h
    cases u <;> cases v <;> simp [co, net, sg, unit] <;> ring
  · have h' := Ne.symm h
    cases u <;> cases v <;> simp [co, net, sg, unit, h, h'] <;> ring

theorem q_lop (i : σ) (f : (σ → ℤ) → ℝ) : q i f = rt • (lop (i, true) f + lop (i, false) f) := by
  funext m
  simp [q_apply, lop_apply, co, net]

theorem d_lop (i : σ) (f : (σ → ℤ) → ℝ) : d i f = rt • (lop (i, false) f - lop (i, true) f) := by
  funext m
  simp [d_apply, lop_apply, co, net]

theorem sum_leg {M : Type} [AddCommMonoid M] (f : Leg σ → M) : ∑ l, f l = ∑ i, (f (i, true) + f (i, false)) := by
  rw [Fintype.sum_prod_type]
  exact sum_congr rfl fun i _ => by rw [Fintype.sum_bool]

theorem cube_apply (G : Leg σ → Leg σ → Leg σ → ℝ) (f : (σ → ℤ) → ℝ) (m : σ → ℤ) :
    cube lop G f m = ∑ x, ∑ y, ∑ z, G x y z * lop x (lop y (lop z f)) m := by
  simp only [cube, LinearMap.sum_apply, Finset.sum_apply, LinearMap.smul_apply, Pi.smul_apply, smul_eq_mul,
    Module.End.mul_apply]

theorem tess_apply (C : Leg σ → Leg σ → Leg σ → Leg σ → ℝ) (f : (σ → ℤ) → ℝ) (m : σ → ℤ) :
    tess lop C f m = ∑ x, ∑ y, ∑ v, ∑ t, C x y v t * lop x (lop y (lop v (lop t f))) m := by
  simp only [tess, LinearMap.sum_apply, Finset.sum_apply, LinearMap.smul_apply, Pi.smul_apply, smul_eq_mul,
    Module.End.mul_apply]

/-- The cubic constants of legs. -/
def leg3 (φ : σ → σ → σ → ℝ) (x y z : Leg σ) : ℝ := φ x.1 y.1 z.1

theorem cub_cube (φ : σ → σ → σ → ℝ) (f : (σ → ℤ) → ℝ) : cub φ f = (rt ^ 3 / 6) • cube lop (leg3 φ) f := by
  funext m
  rw [cub_at, Pi.smul_apply, smul_eq_mul, cube_apply]
  simp only [sum_leg, leg3, mul_sum, ← sum_add_distrib]
  refine sum_congr rfl fun i _ => sum_congr rfl fun j _ => sum_congr rfl fun k _ => ?_
  simp only [q_lop, map_smul, map_add, Pi.smul_apply, Pi.add_apply, smul_eq_mul, smul_add]
  ring

theorem qua_tess (ψ : σ → σ → σ → σ → ℝ) (f : (σ → ℤ) → ℝ) :
    qua ψ f = (rt ^ 4 / 24) • tess lop (fun x y v t => ψ x.1 y.1 v.1 t.1) f := by
  funext m
  rw [Pi.smul_apply, smul_eq_mul, tess_apply]
  simp only [qua, Pi.smul_apply, Finset.sum_apply, smul_eq_mul, sum_leg, mul_sum, ← sum_add_distrib]
  refine sum_congr rfl fun i _ => sum_congr rfl fun j _ => sum_congr rfl fun k _ => sum_congr rfl fun l _ => ?_
  simp only [q_lop, map_smul, map_add, Pi.smul_apply, Pi.add_apply, smul_eq_mul, smul_add]
  ring

/-- The constants of the angular momentum. -/
noncomputable def leg2 (w : σ → ℝ) (ζ : σ → σ → ℝ) (x y : Leg σ) : ℝ :=
  ζ x.1 y.1 * Real.sqrt (w y.1 / w x.1) * if y.2 then -1 else 1

/-- The angular momentum. -/
noncomputable def angOp (w : σ → ℝ) (ζ : σ → σ → ℝ) : Module.End ℝ ((σ → ℤ) → ℝ) :=
  ∑ x, ∑ y, leg2 w ζ x y • (lop x * lop y)

theorem angOp_apply (w : σ → ℝ) (ζ : σ → σ → ℝ) (f : (σ → ℤ) → ℝ) :
    angOp w ζ f = ∑ x, ∑ y, leg2 w ζ x y • lop x (lop y f) := by
  simp only [angOp, LinearMap.sum_apply, LinearMap.smul_apply, Module.End.mul_apply]

theorem ang_op (w : σ → ℝ) (ζ : σ → σ → ℝ) (f : (σ → ℤ) → ℝ) : ang w ζ f = rt ^ 2 • angOp w ζ f := by
  funext m
  simp only [ang, angOp_apply, Finset.sum_apply, Pi.smul_apply, smul_eq_mul, sum_leg, mul_sum, ← sum_add_distrib, leg2,
    Pi.add_apply]
  refine sum_congr rfl fun i _ => sum_congr rfl fun j _ => ?_
  simp only [q_lop, d_lop, map_smul, map_sub, Pi.smul_apply, Pi.add_apply, Pi.sub_apply, smul_eq_mul, smul_add, smul_sub,
    if_true, Bool.false_eq_true, if_false]
  ring

theorem ang_tess (w : σ → ℝ) (ζ : σ → σ → ℝ) (f : (σ → ℤ) → ℝ) :
    ang w ζ (ang w ζ f) = rt ^ 4 • tess lop (fun x y v t => leg2 w ζ x y * leg2 w ζ v t) f := by
  rw [ang_op, ang_op, map_smul, smul_smul, show rt ^ 2 * rt ^ 2 = rt ^ 4 by ring]
  congr 1
  funext m
  rw [tess_apply, angOp_apply w ζ (angOp w ζ f)]
  simp only [angOp_apply w ζ f, map_sum, map_smul, Finset.sum_apply, Pi.smul_apply, smul_eq_mul, mul_sum, mul_assoc]

omit [Fintype σ] in
theorem op3_dia (g : (σ → ℤ) → ℝ) (m : σ → ℤ) (f : (σ → ℤ) → ℝ) (x y z : Leg σ) :
    lop x (lop y (lop z (dia g m f))) m = g (-(net x + net y + net z)) * lop x (lop y (lop z f)) m := by
  simp only [lop_apply, dia_apply]
  rw [show m - net x - net y - net z - m = -(net x + net y + net z) by abel]
  ring

theorem dia_op3 (g : (σ → ℤ) → ℝ) (n : σ → ℤ) (x y z : Leg σ) :
    dia g n (lop x (lop y (lop z (one n)))) = g (net x + net y + net z) • lop x (lop y (lop z (one n))) := by
  funext m
  simp only [dia_apply, lop_apply, Pi.smul_apply, smul_eq_mul, one]
  by_cases h : m - net x - net y - net z = n
  · rw [if_pos h, ← h, show m - (m - net x - net y - net z) = net x + net y + net z by abel]
    ring
  · rw [if_neg h]; ring

/-- The cubic constants with the inverse energy differences. -/
def leg3g (φ : σ → σ → σ → ℝ) (g : (σ → ℤ) → ℝ) (x y z : Leg σ) : ℝ := φ x.1 y.1 z.1 * g (net x + net y + net z)

/-- `Σ_k φ_kxy φ_kvt (g (x + y - k) + g (-x - y - k))`. -/
def pairF (φ : σ → σ → σ → ℝ) (g : (σ → ℤ) → ℝ) (x y v t : Leg σ) : ℝ :=
  ∑ k, φ k x.1 y.1 * φ k v.1 t.1 * (g (net x + net y - unit k) + g (-(net x + net y) - unit k))

theorem sg_sum (φ : σ → σ → σ → ℝ) {g : (σ → ℤ) → ℝ} (hg : ∀ s, g (-s) = -g s) (x y v t : Leg σ) :
    ∑ l, ∑ l', sg l l' * leg3g φ g l x y * leg3 φ l' v t = pairF φ g x y v t := by
  rw [sum_leg]
  refine sum_congr rfl fun k _ => ?_
  simp only [sum_leg, sg, leg3g, leg3, if_true, Bool.false_eq_true, if_false, ite_mul, zero_mul, zero_add, add_zero,
    ite_self, sum_ite_eq, mem_univ, net]
  rw [show unit k + (if x.2 = true then unit x.1 else -unit x.1) + (if y.2 = true then unit y.1 else -unit y.1) =
    -(-((if x.2 = true then unit x.1 else -unit x.1) + (if y.2 = true then unit y.1 else -unit y.1)) - unit k) by abel, hg,
    show -unit k + (if x.2 = true then unit x.1 else -unit x.1) + (if y.2 = true then unit y.1 else -unit y.1) =
    ((if x.2 = true then unit x.1 else -unit x.1) + (if y.2 = true then unit y.1 else -unit y.1)) - unit k by abel]
  ring

/-- The second-order coupling by the cubic potential, as one expression of fourth degree. -/
theorem cub_couple {φ : σ → σ → σ → ℝ} (hφ : Sy3 φ) {g : (σ → ℤ) → ℝ} (hg : ∀ s, g (-s) = -g s) (n m : σ → ℤ) :
    cub φ (dia g n (cub φ (one n))) m + cub φ (dia g m (cub φ (one n))) m =
      -(1 / 96) * tess lop (fun x y v t => pairF φ g x y v t + pairF φ g y v x t + pairF φ g v t x y) (one n) m := by
  have hΦ : ∀ x y z, leg3 φ x y z = leg3 φ y x z ∧ leg3 φ x y z = leg3 φ x z y := fun x y z => hφ _ _ _
  have hG : ∀ x y z, leg3g φ g x y z = leg3g φ g y x z ∧ leg3g φ g x y z = leg3g φ g x z y := by
    intro x y z
    unfold leg3g
    rw [← (hφ x.1 y.1 z.1).1, ← (hφ x.1 y.1 z.1).2, add_comm (net y), add_right_comm (net x) (net z)]
    exact ⟨rfl, rfl⟩
  have e1 : dia g n (cub φ (one n)) = (rt ^ 3 / 6) • cube lop (leg3g φ g) (one n) := by
    rw [cub_cube, map_smul]
    congr 1
    simp only [cube, LinearMap.sum_apply, map_sum, LinearMap.smul_apply, map_smul, Module.End.mul_apply, dia_op3, smul_smul]
    rfl
  have e2 : ∀ f, cub φ (dia g m f) m = -((rt ^ 3 / 6) * cube lop (leg3g φ g) f m) := by
    intro f
    rw [cub_cube, Pi.smul_apply, smul_eq_mul, cube_apply, cube_apply, ← mul_neg, ← sum_neg_distrib]
    congr 1
    refine sum_congr rfl fun x _ => ?_
    rw [← sum_neg_distrib]
    refine sum_congr rfl fun y _ => ?_
    rw [← sum_neg_distrib]
    refine sum_congr rfl fun z _ => ?_
    rw [op3_dia, hg, leg3, leg3g]
    ring
  rw [e1, e2, cub_cube, cub_cube, map_smul, map_smul]
  have := congrFun (LinearMap.congr_fun (cube_cube lop_comm hG hΦ) (one n)) m
  simp only [LinearMap.sub_apply, Module.End.mul_apply, LinearMap.smul_apply, Pi.sub_apply, Pi.smul_apply, smul_eq_mul,
    sg_sum φ hg] at this ⊢
  have r := rt6
  have : cube lop (leg3 φ) (cube lop (leg3g φ g) (one n)) m - cube lop (leg3g φ g) (cube lop (leg3 φ) (one n)) m =
    -(3 * tess lop (fun x y v t => pairF φ g x y v t + pairF φ g y v x t + pairF φ g v t x y) (one n) m) := by
      rw [← this]; ring
  calc _ = rt ^ 6 / 36 * (cube lop (leg3 φ) (cube lop (leg3g φ g) (one n)) m -
        cube lop (leg3g φ g) (cube lop (leg3 φ) (one n)) m) := by ring
    _ = _ := by rw [this, r]; ring

end Verif.Osc
