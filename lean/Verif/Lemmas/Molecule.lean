import Verif.Spec.Molecule
import Verif.Lemmas.AxisFlip
import Verif.Props.Frame

/-!
# Two descriptions of a molecule: the intermediate results correspond
-/

namespace Verif

open Finset

variable {ι : Type}

/-- The coordinate of the first description that belongs to coordinate `x` of the second. -/
def coordOf (order : Nat → Nat) (x : Nat) : Nat := 3 * order (x / 3) + x % 3

/-- A displacement in the principal axes of the first description, given in those of the second. -/
def carried (order : Nat → Nat) (dir : Nat → ℝ) (u : Nat → ℝ) : Nat → ℝ :=
  fun x => dir (x % 3) * u (coordOf order x)

theorem order_sum {n : Nat} {order : Nat → Nat} (h : IsOrder n order) (f : Nat → ℝ) :
    ∑ a ∈ range n, f (order a) = ∑ a ∈ range n, f a := by
  have hinj : Set.InjOn order (range n : Set Nat) := fun a ha b hb e =>
    h.2 a (mem_range.1 ha) b (mem_range.1 hb) e
  have hmaps : Set.MapsTo order (range n : Set Nat) (range n : Set Nat) := fun a ha =>
    mem_coe.2 (mem_range.2 (h.1 a (mem_range.1 ha)))
  refine sum_nbij order (fun a ha => hmaps ha) hinj ?_ fun _ _ => rfl
  exact surjOn_of_injOn_of_card_le order hmaps hinj le_rfl

theorem order_surj {n : Nat} {order : Nat → Nat} (h : IsOrder n order) : ∀ b < n, ∃ a < n, order a = b := by
  have hinj : Set.InjOn order (range n : Set Nat) := fun a ha b hb e =>
    h.2 a (mem_range.1 ha) b (mem_range.1 hb) e
  have hmaps : Set.MapsTo order (range n : Set Nat) (range n : Set Nat) := fun a ha =>
    mem_coe.2 (mem_range.2 (h.1 a (mem_range.1 ha)))
  intro b hb
  obtain ⟨a, ha, e⟩ := surjOn_of_injOn_of_card_le order hmaps hinj le_rfl (mem_coe.2 (mem_range.2 hb))
  exact ⟨a, mem_range.1 ha, e⟩

theorem coordOf_isOrder {n : Nat} {order : Nat → Nat} (h : IsOrder n order) : IsOrder (3 * n) (coordOf order) := by
  refine ⟨fun x hx => ?_, fun x hx y hy e => ?_⟩
  · have := h.1 (x / 3) (by omega)
    unfold coordOf
    omega
  · unfold coordOf at e
    have := h.2 (x / 3) (by omega) (y / 3) (by omega) (by omega)
    omega

theorem coordOf_div (order : Nat → Nat) (x : Nat) : coordOf order x / 3 = order (x / 3) := by
  unfold coordOf; omega

theorem coordOf_mod (order : Nat → Nat) (x : Nat) : coordOf order x % 3 = x % 3 := by
  unfold coordOf; omega

theorem coordOf_at (order : Nat → Nat) (a q : Nat) (hq : q < 3) : coordOf order (3 * a + q) = 3 * order a + q := by
  unfold coordOf
  rw [show (3 * a + q) / 3 = a by omega, show (3 * a + q) % 3 = q by omega]

theorem carried_surj {n : Nat} {order : Nat → Nat} (h : IsOrder n order) {dir : Nat → ℝ} (hd : Signs dir)
    (v : Nat → ℝ) : ∃ u, ∀ x < 3 * n, v x = carried order dir u x := by
  have hs := order_surj (coordOf_isOrder h)
  choose! g hg using hs
  refine ⟨fun y => dir (y % 3) * v (g y), fun x hx => ?_⟩
  have hx' := (coordOf_isOrder h).1 x hx
  have e : g (coordOf order x) = x := (coordOf_isOrder h).2 _ (hg _ hx').1 x hx (hg _ hx').2
  rw [carried, e, coordOf_mod, ← mul_assoc, hd.sq, one_mul]

theorem form2_same {n : Nat} (f : Nat → Nat → ℝ) {u u' v v' : Nat → ℝ} (hu : ∀ x < n, u x = u' x)
    (hv : ∀ x < n, v x = v' x) : form2 n f u v = form2 n f u' v' := by
  unfold form2
  refine sum_congr rfl fun x hx => sum_congr rfl fun y hy => ?_
  rw [hu x (mem_range.1 hx), hv y (mem_range.1 hy)]

theorem massForm_same {n : Nat} (m : Nat → ℝ) {u u' v v' : Nat → ℝ} (hu : ∀ x < n, u x = u' x)
    (hv : ∀ x < n, v x = v' x) : massForm n m u v = massForm n m u' v' := by
  unfold massForm
  refine sum_congr rfl fun x hx => ?_
  rw [hu x (mem_range.1 hx), hv x (mem_range.1 hx)]

theorem applyAxes_same {n : Nat} (axes : Nat → Nat → ℝ) {u u' : Nat → ℝ} (h : ∀ x < 3 * n, u x = u' x) :
    ∀ x < 3 * n, applyAxes axes u x = applyAxes axes u' x := by
  intro x hx
  unfold applyAxes
  refine sum_congr rfl fun q hq => ?_
  have := mem_range.1 hq
  rw [h _ (by omega)]

theorem axes_cancel {axes : Nat → Nat → ℝ} (h : Orthogonal3 axes) {v v' : Nat → ℝ}
    (e : ∀ p < 3, ∑ q ∈ range 3, axes p q * v q = ∑ q ∈ range 3, axes p q * v' q) : ∀ q < 3, v q = v' q := by
  intro q hq
  have key : ∀ v : Nat → ℝ, ∑ p ∈ range 3, axes p q * ∑ r ∈ range 3, axes p r * v r = v q := by
    intro v
    simp only [mul_sum]
    rw [sum_comm]
    have : ∀ r ∈ range 3, ∑ p ∈ range 3, axes p q * (axes p r * v r) = if q = r then v r else 0 := by
      intro r hr
      have := h.1 q r hq (mem_range.1 hr)
      rw [sum_congr rfl fun p _ => (mul_assoc (axes p q) (axes p r) (v r)).symm, ← sum_mul, this]
      split <;> simp
    rw [sum_congr rfl this, sum_ite_eq, if_pos (mem_range.2 hq)]
  rw [← key v, ← key v']
  exact sum_congr rfl fun p hp => by rw [e p (mem_range.1 hp)]

section
variable {n : Nat} {d e : Description} {R : Nat → Nat → ℝ} {order : Nat → Nat} {dir : Nat → ℝ}
  (M : SameMolecule n d e R order dir)
include M

theorem SameMolecule.axes_carried (u : Nat → ℝ) :
    applyAxes e.axes (carried order dir u) = moved R order (applyAxes d.axes u) := by
  funext x
  have hd : ∀ q, dir q * dir q = 1 := Signs.sq M.isDir
  have hx : x % 3 < 3 := Nat.mod_lt _ (by omega)
  have c : ∀ q < 3, carried order dir u (3 * (x / 3) + q) = dir q * u (3 * order (x / 3) + q) := by
    intro q hq
    rw [carried, coordOf_at _ _ _ hq, show (3 * (x / 3) + q) % 3 = q by omega]
  have a : ∀ q < 3, applyAxes d.axes u (3 * order (x / 3) + q) = ∑ r ∈ range 3, d.axes q r * u (3 * order (x / 3) + r) := by
    intro q hq
    rw [applyAxes, show (3 * order (x / 3) + q) % 3 = q by omega, show (3 * order (x / 3) + q) / 3 = order (x / 3) by omega]
  have l : applyAxes e.axes (carried order dir u) x =
      ∑ q ∈ range 3, (∑ p ∈ range 3, R (x % 3) p * d.axes p q) * u (3 * order (x / 3) + q) := by
    rw [applyAxes]
    refine sum_congr rfl fun q hq => ?_
    rw [c q (mem_range.1 hq), M.axes _ hx q (mem_range.1 hq)]
    linear_combination ((∑ p ∈ range 3, R (x % 3) p * d.axes p q) * u (3 * order (x / 3) + q)) * hd q
  have r : moved R order (applyAxes d.axes u) x =
      ∑ q ∈ range 3, R (x % 3) q * ∑ r ∈ range 3, d.axes q r * u (3 * order (x / 3) + r) := by
    rw [moved]
    exact sum_congr rfl fun q hq => by rw [a q (mem_range.1 hq)]
  rw [l, r]
  simp only [mul_sum, sum_mul]
  rw [sum_comm]
  exact sum_congr rfl fun p _ => sum_congr rfl fun q _ => by ring

theorem SameMolecule.positions (he : Orthogonal3 e.axes) :
    ∀ a < n, ∀ q < 3, e.pos a q = dir q * d.pos (order a) q := by
  intro a ha
  refine axes_cancel he fun p hp => ?_
  rw [M.pos a ha p hp]
  have hd : ∀ q, dir q * dir q = 1 := Signs.sq M.isDir
  have l : ∀ q ∈ range 3, e.axes p q * (dir q * d.pos (order a) q) =
      (∑ u ∈ range 3, R p u * d.axes u q) * d.pos (order a) q := by
    intro q hq
    rw [M.axes p hp q (mem_range.1 hq)]
    linear_combination ((∑ u ∈ range 3, R p u * d.axes u q) * d.pos (order a) q) * hd q
  rw [sum_congr rfl l]
  simp only [mul_sum, sum_mul]
  rw [sum_comm]
  exact sum_congr rfl fun p _ => sum_congr rfl fun q _ => by ring

theorem SameMolecule.form2_carried (u v : Nat → ℝ) :
    form2 (3 * n) (rot2nd n e.axes e.fc2) (carried order dir u) (carried order dir v) =
      form2 (3 * n) (rot2nd n d.axes d.fc2) u v := by
  rw [c07_form, c07_form, M.axes_carried, M.axes_carried, M.fc2]

theorem SameMolecule.form3_carried (u v w : Nat → ℝ) :
    form3 (3 * n) (rot3rd (3 * n) n e.axes e.fc3) (carried order dir u) (carried order dir v) (carried order dir w) =
      form3 (3 * n) (rot3rd (3 * n) n d.axes d.fc3) u v w := by
  rw [c08_form, c08_form, M.axes_carried, M.axes_carried, M.axes_carried, M.fc3]

theorem SameMolecule.form4_carried (u v w t : Nat → ℝ) :
    form4 (3 * n) (rot4th (3 * n) n e.axes e.fc4) (carried order dir u) (carried order dir v) (carried order dir w)
      (carried order dir t) = form4 (3 * n) (rot4th (3 * n) n d.axes d.fc4) u v w t := by
  rw [c09_form, c09_form, M.axes_carried, M.axes_carried, M.axes_carried, M.axes_carried, M.fc4]

theorem SameMolecule.sum_coord (f : Nat → ℝ) :
    ∑ x ∈ range (3 * n), f (coordOf order x) = ∑ x ∈ range (3 * n), f x :=
  order_sum (coordOf_isOrder M.isOrder) f

theorem SameMolecule.massForm_carried (u v : Nat → ℝ) :
    massForm (3 * n) e.weights (carried order dir u) (carried order dir v) = massForm (3 * n) d.weights u v := by
  have hd : ∀ q, dir q * dir q = 1 := Signs.sq M.isDir
  unfold massForm
  conv_rhs => rw [← M.sum_coord]
  refine sum_congr rfl fun x hx => ?_
  have := mem_range.1 hx
  rw [M.weights _ (by omega), coordOf_div, carried, carried]
  linear_combination (d.weights (order (x / 3)) * u (coordOf order x) * v (coordOf order x)) * hd (x % 3)

/-- The rotated Hessians have the same entries up to the names of the coordinates and the directions of the axes. -/
theorem SameMolecule.hessian {x y : Nat} (hx : x < 3 * n) (hy : y < 3 * n) :
    rot2nd n e.axes e.fc2 x y =
      dir (x % 3) * dir (y % 3) * rot2nd n d.axes d.fc2 (coordOf order x) (coordOf order y) := by
  have hd : ∀ q, dir q * dir q = 1 := Signs.sq M.isDir
  have hc := coordOf_isOrder M.isOrder
  have s : ∀ x < 3 * n, ∀ z < 3 * n, carried order dir (single (coordOf order x)) z = dir (x % 3) * single x z := by
    intro x hx z hz
    unfold carried single
    by_cases h : z = x
    · rw [h, if_pos rfl, if_pos rfl]
    · rw [if_neg h, if_neg fun e => h (hc.2 z hz x hx e), mul_zero, mul_zero]
  have h := M.form2_carried (single (coordOf order x)) (single (coordOf order y))
  rw [form2_single _ _ (hc.1 x hx) (hc.1 y hy), form2_same _ (s x hx) (s y hy)] at h
  have sc : form2 (3 * n) (rot2nd n e.axes e.fc2) (fun z => dir (x % 3) * single x z) (fun z => dir (y % 3) * single y z) =
      dir (x % 3) * dir (y % 3) * form2 (3 * n) (rot2nd n e.axes e.fc2) (single x) (single y) := by
    unfold form2
    simp only [mul_sum]
    exact sum_congr rfl fun _ _ => sum_congr rfl fun _ _ => by ring
  rw [sc, form2_single _ _ hx hy] at h
  rw [← h]
  linear_combination (-dir (y % 3) * dir (y % 3) * rot2nd n e.axes e.fc2 x y) * hd (x % 3) -
    rot2nd n e.axes e.fc2 x y * hd (y % 3)

/-- The secular matrices as well. -/
theorem SameMolecule.secular (h2 : Symm2 (3 * n) d.fc2) {x y : Nat} (hx : x < 3 * n) (hy : y < 3 * n) :
    formSec (3 * n) (fun i j => FACT2 * rot2nd n e.axes e.fc2 i j) (fun i => Arith.lit 1.0 / Arith.sqrt (e.weights i)) x y =
      dir (x % 3) * dir (y % 3) * formSec (3 * n) (fun i j => FACT2 * rot2nd n d.axes d.fc2 i j)
        (fun i => Arith.lit 1.0 / Arith.sqrt (d.weights i)) (coordOf order x) (coordOf order y) := by
  have hc := coordOf_isOrder M.isOrder
  have hsy := c07_symmetric n d.axes d.fc2 h2
  have full : ∀ x y, x < 3 * n → y < 3 * n →
      formSec (3 * n) (fun i j => (FACT2 : ℝ) * rot2nd n d.axes d.fc2 i j) (fun i => Arith.lit 1.0 / Arith.sqrt (d.weights i)) x y =
        Arith.lit 1.0 / Arith.sqrt (d.weights (x / 3)) * (FACT2 * rot2nd n d.axes d.fc2 x y) *
          (Arith.lit 1.0 / Arith.sqrt (d.weights (y / 3))) := by
    intro x y hx hy
    rcases le_total x y with h | h
    · rw [c10_entry _ _ _ _ _ h hy]
    · rw [c10_symmetric, c10_entry _ _ _ _ _ h hx, hsy x y hx hy]
      ring
  have up : ∀ x y, x ≤ y → y < 3 * n →
      formSec (3 * n) (fun i j => FACT2 * rot2nd n e.axes e.fc2 i j) (fun i => Arith.lit 1.0 / Arith.sqrt (e.weights i)) x y =
      dir (x % 3) * dir (y % 3) * formSec (3 * n) (fun i j => FACT2 * rot2nd n d.axes d.fc2 i j)
        (fun i => Arith.lit 1.0 / Arith.sqrt (d.weights i)) (coordOf order x) (coordOf order y) := by
    intro x y h hy
    have hx : x < 3 * n := by omega
    rw [c10_entry _ _ _ _ _ h hy, full _ _ (hc.1 x hx) (hc.1 y hy), M.hessian hx hy, coordOf_div, coordOf_div,
      M.weights _ (by omega), M.weights _ (by omega)]
    ring
  rcases le_total x y with h | h
  · exact up x y h hy
  · rw [c10_symmetric, up y x h hx, c10_symmetric (3 * n) _ _ (coordOf order x)]
    ring

/-- A solution of one secular problem gives a solution of the other. -/
theorem SameMolecule.eigen {A B : Nat → Nat → ℝ}
    (h : ∀ x < 3 * n, ∀ y < 3 * n, B x y = dir (x % 3) * dir (y % 3) * A (coordOf order x) (coordOf order y))
    {r : List ℝ × (Nat → Nat → ℝ)} (hr : IsEigen (3 * n) A r) :
    IsEigen (3 * n) B (r.1, fun x j => carried order dir (fun y => r.2 y j) x) := by
  have hd : ∀ q, dir q * dir q = 1 := Signs.sq M.isDir
  obtain ⟨h1, h2, h3⟩ := hr
  refine ⟨h1, fun i j hi hj => ?_, fun i l hl a ha => ?_⟩
  · rw [← h2 i j hi hj]
    conv_rhs => rw [← M.sum_coord]
    refine sum_congr rfl fun x _ => ?_
    simp only [carried]
    linear_combination (r.2 (coordOf order x) i * r.2 (coordOf order x) j) * hd (x % 3)
  · have := h3 i l hl (coordOf order a) ((coordOf_isOrder M.isOrder).1 a ha)
    rw [← M.sum_coord] at this
    simp only [carried]
    rw [mul_left_comm, ← this, mul_sum]
    refine sum_congr rfl fun y hy => ?_
    rw [h a ha y (mem_range.1 hy)]
    linear_combination (dir (a % 3) * A (coordOf order a) (coordOf order y) * r.2 (coordOf order y) i) * hd (y % 3)

/-- The Coriolis constants. -/
theorem SameMolecule.zmat {nvib : Nat} {σ : Nat → ℝ} {lxm lxm' : Mat ℝ}
    (h : ∀ x < 3 * n, ∀ j < nvib, lxm' x j = σ j * carried order dir (fun y => lxm y j) x) :
    makeZmat nvib n lxm' = fun i j x => σ i * σ j * (turnSign dir x * makeZmat nvib n lxm i j x) := by
  have c : ∀ a < n, ∀ q < 3, ∀ j < nvib, lxm' (3 * a + q) j = σ j * (dir q * lxm (3 * order a + q) j) := by
    intro a ha q hq j hj
    rw [h _ (by omega) j hj, carried, coordOf_at _ _ _ hq, show (3 * a + q) % 3 = q by omega]
  funext i j x
  unfold makeZmat
  by_cases hr : i < nvib ∧ j < nvib
  · have hi := hr.1
    have hj := hr.2
    rw [if_pos hr, if_pos hr]
    simp only [sumTo_real, lit_real, Rat.cast_zero, turnSign]
    have c0 : ∀ a < n, ∀ j < nvib, lxm' (3 * a) j = σ j * (dir 0 * lxm (3 * order a) j) := fun a ha j hj =>
      c a ha 0 (by omega) j hj
    split_ifs
    · conv_rhs => rw [← order_sum M.isOrder, mul_sum, mul_sum]
      refine sum_congr rfl fun a ha => ?_
      have ha := mem_range.1 ha
      rw [c a ha 1 (by omega) i hi, c a ha 1 (by omega) j hj, c a ha 2 (by omega) i hi, c a ha 2 (by omega) j hj]
      ring
    · conv_rhs => rw [← order_sum M.isOrder, mul_sum, mul_sum]
      refine sum_congr rfl fun a ha => ?_
      have ha := mem_range.1 ha
      rw [c0 a ha i hi, c0 a ha j hj, c a ha 2 (by omega) i hi, c a ha 2 (by omega) j hj]
      ring
    · conv_rhs => rw [← order_sum M.isOrder, mul_sum, mul_sum]
      refine sum_congr rfl fun a ha => ?_
      have ha := mem_range.1 ha
      rw [c0 a ha i hi, c0 a ha j hj, c a ha 1 (by omega) i hi, c a ha 1 (by omega) j hj]
      ring
    · ring
  · rw [if_neg hr, if_neg hr]
    simp [lit_real]

/-- The derivatives of the inertia tensor. -/
theorem SameMolecule.wila (he : Orthogonal3 e.axes) {nvib : Nat} {σ : Nat → ℝ} {lxm lxm' : Mat ℝ}
    (h : ∀ x < 3 * n, ∀ j < nvib, lxm' x j = σ j * carried order dir (fun y => lxm y j) x) :
    wilsonA nvib n e.pos lxm' e.weights =
      fun k c => σ k * (packSign dir c * wilsonA nvib n d.pos lxm d.weights k c) := by
  have hd : ∀ q, dir q * dir q = 1 := Signs.sq M.isDir
  have hp := M.positions he
  have c : ∀ a < n, ∀ q < 3, ∀ j < nvib, lxm' (3 * a + q) j = σ j * (dir q * lxm (3 * order a + q) j) := by
    intro a ha q hq j hj
    rw [h _ (by omega) j hj, carried, coordOf_at _ _ _ hq, show (3 * a + q) % 3 = q by omega]
  have c0 : ∀ a < n, ∀ j < nvib, lxm' (3 * a) j = σ j * (dir 0 * lxm (3 * order a) j) := fun a ha j hj =>
    c a ha 0 (by omega) j hj
  funext k s
  unfold wilsonA
  by_cases hk : k < nvib
  · rw [if_pos hk, if_pos hk]
    simp only [sumTo_real, lit_real, foldl_sub_real, range_sum_list, sqrt_real]
    have e1 : ∀ (ρ : ℝ) (f g : Nat → ℝ), (∀ a < n, f a = σ k * (ρ * g (order a))) →
        ∑ a ∈ range n, f a = σ k * (ρ * ∑ a ∈ range n, g a) := by
      intro ρ f g hfg
      rw [← order_sum M.isOrder g, mul_sum, mul_sum]
      exact sum_congr rfl fun a ha => hfg a (mem_range.1 ha)
    simp only [packSign]
    rcases (show s = 0 ∨ s = 1 ∨ s = 2 ∨ s = 3 ∨ s = 4 ∨ s = 5 ∨ 6 ≤ s by omega) with rfl | rfl | rfl | rfl | rfl | rfl | h6
    · norm_num only [if_true, if_false]
      rw [e1 1 _ (fun i => Real.sqrt (d.weights i) * (d.pos i 1 * lxm (3 * i + 1) k + d.pos i 2 * lxm (3 * i + 2) k))
        fun a ha => by
          rw [M.weights a ha, hp a ha 1 (by omega), hp a ha 2 (by omega), c a ha 1 (by omega) k hk, c a ha 2 (by omega) k hk]
          linear_combination (Real.sqrt (d.weights (order a)) * d.pos (order a) 1 * σ k * lxm (3 * order a + 1) k) * hd 1 +
            (Real.sqrt (d.weights (order a)) * d.pos (order a) 2 * σ k * lxm (3 * order a + 2) k) * hd 2]
      ring
    · norm_num only [if_true, if_false]
      rw [e1 (dir 0 * dir 1) _ (fun i => Real.sqrt (d.weights i) * d.pos i 0 * lxm (3 * i + 1) k)
        fun a ha => by
          rw [M.weights a ha, hp a ha 0 (by omega), c a ha 1 (by omega) k hk]
          ring]
      ring
    · norm_num only [if_true, if_false]
      rw [e1 1 _ (fun i => Real.sqrt (d.weights i) * (d.pos i 0 * lxm (3 * i) k + d.pos i 2 * lxm (3 * i + 2) k))
        fun a ha => by
          rw [M.weights a ha, hp a ha 0 (by omega), hp a ha 2 (by omega), c0 a ha k hk, c a ha 2 (by omega) k hk]
          linear_combination (Real.sqrt (d.weights (order a)) * d.pos (order a) 0 * σ k * lxm (3 * order a) k) * hd 0 +
            (Real.sqrt (d.weights (order a)) * d.pos (order a) 2 * σ k * lxm (3 * order a + 2) k) * hd 2]
      ring
    · norm_num only [if_true, if_false]
      rw [e1 (dir 0 * dir 2) _ (fun i => Real.sqrt (d.weights i) * d.pos i 0 * lxm (3 * i + 2) k)
        fun a ha => by
          rw [M.weights a ha, hp a ha 0 (by omega), c a ha 2 (by omega) k hk]
          ring]
      ring
    · norm_num only [if_true, if_false]
      rw [e1 (dir 1 * dir 2) _ (fun i => Real.sqrt (d.weights i) * d.pos i 1 * lxm (3 * i + 2) k)
        fun a ha => by
          rw [M.weights a ha, hp a ha 1 (by omega), c a ha 2 (by omega) k hk]
          ring]
      ring
    · norm_num only [if_true, if_false]
      rw [e1 1 _ (fun i => Real.sqrt (d.weights i) * (d.pos i 0 * lxm (3 * i) k + d.pos i 1 * lxm (3 * i + 1) k))
        fun a ha => by
          rw [M.weights a ha, hp a ha 0 (by omega), hp a ha 1 (by omega), c0 a ha k hk, c a ha 1 (by omega) k hk]
          linear_combination (Real.sqrt (d.weights (order a)) * d.pos (order a) 0 * σ k * lxm (3 * order a) k) * hd 0 +
            (Real.sqrt (d.weights (order a)) * d.pos (order a) 1 * σ k * lxm (3 * order a + 1) k) * hd 1]
      ring
    · simp [show s ≠ 0 by omega, show s ≠ 1 by omega, show s ≠ 2 by omega, show s ≠ 3 by omega, show s ≠ 4 by omega,
        show s ≠ 5 by omega]
  · rw [if_neg hk, if_neg hk]
    simp [lit_real]

/-- The equations of motion. -/
theorem SameMolecule.motion (hd : Orthogonal3 d.axes) (he : Orthogonal3 e.axes) {u v : Nat → ℝ} {c l : ℝ}
    (hv : ∀ x < 3 * n, v x = carried order dir u x)
    (h : ∀ t, c * form2 (3 * n) e.fc2 t (applyAxes e.axes v) = l * massForm (3 * n) e.weights t (applyAxes e.axes v)) :
    ∀ t, c * form2 (3 * n) d.fc2 t (applyAxes d.axes u) = l * massForm (3 * n) d.weights t (applyAxes d.axes u) := by
  intro t
  have ht : applyAxes d.axes (applyAxes (transposed d.axes) t) = t :=
    applyAxes_turnBack (R := transposed d.axes) ⟨hd.2, hd.1⟩ t
  have hv' := applyAxes_same e.axes hv
  have := h (applyAxes e.axes (carried order dir (applyAxes (transposed d.axes) t)))
  rw [form2_same _ (fun _ _ => rfl) hv', massForm_same _ (fun _ _ => rfl) hv', massForm_rotate _ _ _ he,
    M.massForm_carried, M.axes_carried, M.axes_carried, M.fc2, ht] at this
  rw [this, ← massForm_rotate _ _ _ hd, ht]

theorem SameMolecule.norm (hd : Orthogonal3 d.axes) (he : Orthogonal3 e.axes) {u v : Nat → ℝ}
    (hv : ∀ x < 3 * n, v x = carried order dir u x) :
    massForm (3 * n) e.weights (applyAxes e.axes v) (applyAxes e.axes v) =
      massForm (3 * n) d.weights (applyAxes d.axes u) (applyAxes d.axes u) := by
  rw [massForm_rotate _ _ _ he, massForm_rotate _ _ _ hd, massForm_same _ hv hv, M.massForm_carried]

/-- The cubic constants. -/
theorem SameMolecule.cubic (h3 : Symm3 (3 * n) d.fc3) (h3' : Symm3 (3 * n) e.fc3) {nvib : Nat} (hn : nvib ≤ 3 * n)
    {σ : Nat → ℝ} {lx lx' : Mat ℝ} (freq : Vec ℝ)
    (h : ∀ x < 3 * n, ∀ j < nvib, lx' x j = σ j * carried order dir (fun y => lx y j) x) :
    f3Of (force3 (3 * n) (rot3rd (3 * n) n e.axes e.fc3) lx' nvib freq) =
      fun i j k => σ i * σ j * σ k * f3Of (force3 (3 * n) (rot3rd (3 * n) n d.axes d.fc3) lx nvib freq) i j k := by
  obtain ⟨l1, g1⟩ := c13_contraction (3 * n) nvib _ lx freq (c08_symmetric n d.axes d.fc3 h3) hn
  obtain ⟨l2, g2⟩ := c13_contraction (3 * n) nvib _ lx' freq (c08_symmetric n e.axes e.fc3 h3') hn
  funext i j k
  by_cases hr : i < nvib ∧ j < nvib ∧ k < nvib
  · obtain ⟨hi, hj, hk⟩ := hr
    rw [f3Of, g2 i j k hi hj hk, f3Of, g1 i j k hi hj hk, Option.getD_some, Option.getD_some,
      form3_scale (3 * n) _ (σ i) (σ j) (σ k) _ _ _ (colOf lx' i) (colOf lx' j)
        (colOf lx' k) (fun r hr => h r hr i hi) (fun r hr => h r hr j hj) (fun r hr => h r hr k hk)]
    have := M.form3_carried (colOf lx i) (colOf lx j) (colOf lx k)
    unfold colOf at this ⊢
    rw [this]
    ring
  · rw [find3_out hr _ l2, find3_out hr _ l1, mul_zero]

/-- The quartic constants. -/
theorem SameMolecule.quartic (h4 : Symm4 (3 * n) d.fc4) (h4' : Symm4 (3 * n) e.fc4) {nvib : Nat} (hn : nvib ≤ 3 * n)
    (h0 : 0 < nvib) {σ : Nat → ℝ} {lx lx' : Mat ℝ} {freq : Vec ℝ} {F F' : F4qcm ℝ}
    (h : ∀ x < 3 * n, ∀ j < nvib, lx' x j = σ j * carried order dir (fun y => lx y j) x)
    (hF : force4 (3 * n) (rot4th (3 * n) n d.axes d.fc4) lx nvib freq = some F)
    (hF' : force4 (3 * n) (rot4th (3 * n) n e.axes e.fc4) lx' nvib freq = some F') :
    f4Of F' = fun i j k l => σ i * σ j * σ k * σ l * f4Of F i j k l := by
  obtain ⟨t, e1, l1, g1⟩ := c14_contraction (3 * n) nvib _ lx freq (c09_symmetric n d.axes d.fc4 h4) hn h0
  obtain ⟨t', e2, l2, g2⟩ := c14_contraction (3 * n) nvib _ lx' freq (c09_symmetric n e.axes e.fc4 h4') hn h0
  obtain rfl : t = F := Option.some.inj (e1.symm.trans hF)
  obtain rfl : t' = F' := Option.some.inj (e2.symm.trans hF')
  funext i j k l
  by_cases hr : i < nvib ∧ j < nvib ∧ k < nvib ∧ l < nvib
  · obtain ⟨hi, hj, hk, hl⟩ := hr
    rw [f4Of, g2 i j k l hi hj hk hl, f4Of, g1 i j k l hi hj hk hl, Option.getD_some, Option.getD_some,
      form4_scale (3 * n) _ (σ i) (σ j) (σ k) (σ l) _ _ _ _ (colOf lx' i) (colOf lx' j)
        (colOf lx' k) (colOf lx' l) (fun r hr => h r hr i hi) (fun r hr => h r hr j hj) (fun r hr => h r hr k hk)
        (fun r hr => h r hr l hl)]
    have := M.form4_carried (colOf lx i) (colOf lx j) (colOf lx k) (colOf lx l)
    unfold colOf at this ⊢
    rw [this]
    ring
  · rw [find4_out hr _ l2, find4_out hr _ l1, mul_zero]

end

end Verif
