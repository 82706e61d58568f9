import Verif.Lemmas.Rotate
import Mathlib.Tactic.LinearCombination

/-!
# C07, C08, C09: rotating the force constants into the principal axis frame

`form2/form3/form4`, `applyAxes`, `Orthogonal3` and `Symm2/3/4` are in `Verif.Spec.Rotate`.
-/

namespace Verif

open Finset

/-- the transposed axes -/
def transposed (axes : Nat → Nat → ℝ) : Nat → Nat → ℝ := fun i j => axes j i

/-- the identity axes -/
def idAxes : Nat → Nat → ℝ := fun i j => if i = j then 1 else 0

/-! ## C07 -/

/-- C07: the rotated Hessian evaluated on `u, v` is the Hessian evaluated on the rotated `u, v`. -/
theorem c07_form (natom : Nat) (axes fx : Mat ℝ) (u v : Nat → ℝ) :
    form2 (3 * natom) (rot2nd natom axes fx) u v =
      form2 (3 * natom) fx (applyAxes axes u) (applyAxes axes v) := by
  unfold form2
  rw [← rotV_form2]
  apply sum_congr rfl; intro x hx
  apply sum_congr rfl; intro y hy
  rw [mem_range] at hx hy
  rw [rot2nd_real natom axes fx x y hx hy]

/-- C07: symmetric stays symmetric. -/
theorem c07_symmetric (natom : Nat) (axes fx : Mat ℝ) (h : Symm2 (3 * natom) fx) :
    Symm2 (3 * natom) (rot2nd natom axes fx) := by
  intro x y hx hy
  rw [rot2nd_real _ _ _ _ _ hx hy, rot2nd_real _ _ _ _ _ hy hx, rotV_swap]
  apply rotV_congr axes natom _ _ _ y hy
  intro b hb
  exact rotV_congr axes natom _ _ (fun a ha => h a b ha hb) x hx

/-- C07: identity axes change nothing. -/
theorem c07_identity (natom : Nat) (fx : Mat ℝ) (x y : Nat) (hx : x < 3 * natom)
    (hy : y < 3 * natom) : rot2nd natom idAxes fx x y = fx x y := by
  rw [rot2nd_real _ _ _ _ _ hx hy]
  unfold idAxes
  rw [rotV_id, rotV_id]

/-- C07: for orthogonal axes, rotating with the transposed axes undoes the rotation. -/
theorem c07_inverse (natom : Nat) (axes fx : Mat ℝ) (ho : Orthogonal3 axes) (x y : Nat)
    (hx : x < 3 * natom) (hy : y < 3 * natom) :
    rot2nd natom (transposed axes) (rot2nd natom axes fx) x y = fx x y := by
  rw [rot2nd_real _ _ _ _ _ hx hy]
  unfold transposed
  rw [rotV_congr _ natom _ (fun x' => rotV axes (fun a => fx a y) x') _ x hx, rotV_inv _ ho]
  intro x' hx'
  rw [rotV_congr _ natom _ (fun y' => rotV axes (fun b => rotV axes (fun a => fx a b) x') y') _ y hy,
    rotV_inv _ ho]
  intro y' hy'
  rw [rot2nd_real _ _ _ _ _ hx' hy', rotV_swap]

/-! ## C08 -/

/-- C08: all three indices of the cubic tensor are rotated once, for any tensor. -/
theorem c08_form (natom : Nat) (axes : Mat ℝ) (f : T3 ℝ) (u v w : Nat → ℝ) :
    form3 (3 * natom) (rot3rd (3 * natom) natom axes f) u v w =
      form3 (3 * natom) f (applyAxes axes u) (applyAxes axes v) (applyAxes axes w) := by
  unfold form3
  have e : ∀ x ∈ range (3 * natom), ∀ y ∈ range (3 * natom), ∀ z ∈ range (3 * natom),
      rot3rd (3 * natom) natom axes f x y z * u x * v y * w z =
      rotV axes (fun x' => rotV axes (fun y' => rotV axes (fun z' => f x' y' z') z) y) x *
        u x * v y * w z := by
    intro x hx y hy z hz
    rw [mem_range] at hx hy hz
    rw [rot3rd_real natom axes f x y z hx hy hz]
  rw [sum_congr rfl fun x hx => sum_congr rfl fun y hy => sum_congr rfl fun z hz => e x hx y hy z hz]
  exact rotV_form3 axes natom f u v w

/-- C08: full symmetry is preserved. -/
theorem c08_symmetric (natom : Nat) (axes : Mat ℝ) (f : T3 ℝ) (h : Symm3 (3 * natom) f) :
    Symm3 (3 * natom) (rot3rd (3 * natom) natom axes f) := by
  intro x y z hx hy hz
  rw [rot3rd_real _ _ _ _ _ _ hx hy hz, rot3rd_real _ _ _ _ _ _ hy hx hz,
    rot3rd_real _ _ _ _ _ _ hx hz hy]
  constructor
  · rw [rotV_swap]
    apply rotV_congr axes natom _ _ _ y hy; intro b hb
    apply rotV_congr axes natom _ _ _ x hx; intro a ha
    apply rotV_congr axes natom _ _ _ z hz; intro c hc
    exact (h a b c ha hb hc).1
  · apply rotV_congr axes natom _ _ _ x hx; intro a ha
    rw [rotV_swap]
    apply rotV_congr axes natom _ _ _ z hz; intro c hc
    apply rotV_congr axes natom _ _ _ y hy; intro b hb
    exact (h a b c ha hb hc).2

/-- C08: identity axes change nothing. -/
theorem c08_identity (natom : Nat) (f : T3 ℝ) (x y z : Nat) (hx : x < 3 * natom)
    (hy : y < 3 * natom) (hz : z < 3 * natom) :
    rot3rd (3 * natom) natom idAxes f x y z = f x y z := by
  rw [rot3rd_real _ _ _ _ _ _ hx hy hz]
  unfold idAxes
  rw [rotV_id, rotV_id, rotV_id]

/-- C08: for orthogonal axes, rotating with the transposed axes undoes the rotation. -/
theorem c08_inverse (natom : Nat) (axes : Mat ℝ) (f : T3 ℝ) (ho : Orthogonal3 axes) (x y z : Nat)
    (hx : x < 3 * natom) (hy : y < 3 * natom) (hz : z < 3 * natom) :
    rot3rd (3 * natom) natom (transposed axes) (rot3rd (3 * natom) natom axes f) x y z =
      f x y z := by
  rw [rot3rd_real _ _ _ _ _ _ hx hy hz]
  unfold transposed
  rw [rotV_congr _ natom _ (fun x' => rotV axes (fun a => f a y z) x') _ x hx, rotV_inv _ ho]
  intro x' hx'
  rw [rotV_congr _ natom _
    (fun y' => rotV axes (fun b => rotV axes (fun a => f a b z) x') y') _ y hy, rotV_inv _ ho]
  intro y' hy'
  rw [rotV_congr _ natom _ (fun z' => rotV axes (fun c => rotV axes (fun b =>
    rotV axes (fun a => f a b c) x') y') z') _ z hz, rotV_inv _ ho]
  intro z' hz'
  rw [rot3rd_real _ _ _ _ _ _ hx' hy' hz', rotV_swap3]

/-! ## C09 -/

/-- C09: all four indices of the quartic tensor are rotated once, for any tensor. -/
theorem c09_form (natom : Nat) (axes : Mat ℝ) (f : T4 ℝ) (u v w s : Nat → ℝ) :
    form4 (3 * natom) (rot4th (3 * natom) natom axes f) u v w s =
      form4 (3 * natom) f (applyAxes axes u) (applyAxes axes v) (applyAxes axes w)
        (applyAxes axes s) := by
  unfold form4
  have e : ∀ x ∈ range (3 * natom), ∀ y ∈ range (3 * natom), ∀ z ∈ range (3 * natom),
      ∀ t ∈ range (3 * natom),
      rot4th (3 * natom) natom axes f x y z t * u x * v y * w z * s t =
      rotV axes (fun x' => rotV axes (fun y' => rotV axes (fun z' =>
        rotV axes (fun t' => f x' y' z' t') t) z) y) x * u x * v y * w z * s t := by
    intro x hx y hy z hz t ht
    rw [mem_range] at hx hy hz ht
    rw [rot4th_real natom axes f x y z t hx hy hz ht]
  rw [sum_congr rfl fun x hx => sum_congr rfl fun y hy => sum_congr rfl fun z hz =>
    sum_congr rfl fun t ht => e x hx y hy z hz t ht]
  exact rotV_form4 axes natom f u v w s

/-- C09: full symmetry is preserved. -/
theorem c09_symmetric (natom : Nat) (axes : Mat ℝ) (f : T4 ℝ) (h : Symm4 (3 * natom) f) :
    Symm4 (3 * natom) (rot4th (3 * natom) natom axes f) := by
  intro x y z t hx hy hz ht
  rw [rot4th_real _ _ _ _ _ _ _ hx hy hz ht, rot4th_real _ _ _ _ _ _ _ hy hx hz ht,
    rot4th_real _ _ _ _ _ _ _ hx hz hy ht, rot4th_real _ _ _ _ _ _ _ hx hy ht hz]
  refine ⟨?_, ?_, ?_⟩
  · rw [rotV_swap]
    apply rotV_congr axes natom _ _ _ y hy; intro b hb
    apply rotV_congr axes natom _ _ _ x hx; intro a ha
    apply rotV_congr axes natom _ _ _ z hz; intro c hc
    apply rotV_congr axes natom _ _ _ t ht; intro d hd
    exact (h a b c d ha hb hc hd).1
  · apply rotV_congr axes natom _ _ _ x hx; intro a ha
    rw [rotV_swap]
    apply rotV_congr axes natom _ _ _ z hz; intro c hc
    apply rotV_congr axes natom _ _ _ y hy; intro b hb
    apply rotV_congr axes natom _ _ _ t ht; intro d hd
    exact (h a b c d ha hb hc hd).2.1
  · apply rotV_congr axes natom _ _ _ x hx; intro a ha
    apply rotV_congr axes natom _ _ _ y hy; intro b hb
    rw [rotV_swap]
    apply rotV_congr axes natom _ _ _ t ht; intro d hd
    apply rotV_congr axes natom _ _ _ z hz; intro c hc
    exact (h a b c d ha hb hc hd).2.2

/-- C09: identity axes change nothing. -/
theorem c09_identity (natom : Nat) (f : T4 ℝ) (x y z t : Nat) (hx : x < 3 * natom)
    (hy : y < 3 * natom) (hz : z < 3 * natom) (ht : t < 3 * natom) :
    rot4th (3 * natom) natom idAxes f x y z t = f x y z t := by
  rw [rot4th_real _ _ _ _ _ _ _ hx hy hz ht]
  unfold idAxes
  rw [rotV_id, rotV_id, rotV_id, rotV_id]

/-- C09: for orthogonal axes, rotating with the transposed axes undoes the rotation. -/
theorem c09_inverse (natom : Nat) (axes : Mat ℝ) (f : T4 ℝ) (ho : Orthogonal3 axes)
    (x y z t : Nat) (hx : x < 3 * natom) (hy : y < 3 * natom) (hz : z < 3 * natom)
    (ht : t < 3 * natom) :
    rot4th (3 * natom) natom (transposed axes) (rot4th (3 * natom) natom axes f) x y z t =
      f x y z t := by
  rw [rot4th_real _ _ _ _ _ _ _ hx hy hz ht]
  unfold transposed
  rw [rotV_congr _ natom _ (fun x' => rotV axes (fun a => f a y z t) x') _ x hx, rotV_inv _ ho]
  intro x' hx'
  rw [rotV_congr _ natom _
    (fun y' => rotV axes (fun b => rotV axes (fun a => f a b z t) x') y') _ y hy, rotV_inv _ ho]
  intro y' hy'
  rw [rotV_congr _ natom _ (fun z' => rotV axes (fun c => rotV axes (fun b =>
    rotV axes (fun a => f a b c t) x') y') z') _ z hz, rotV_inv _ ho]
  intro z' hz'
  rw [rotV_congr _ natom _ (fun t' => rotV axes (fun d => rotV axes (fun c => rotV axes (fun b =>
    rotV axes (fun a => f a b c d) x') y') z') t') _ t ht, rotV_inv _ ho]
  intro t' ht'
  rw [rot4th_real _ _ _ _ _ _ _ hx' hy' hz' ht', rotV_swap4]

/-! Non-vacuity: a rotation by 3-4-5 about z is orthogonal, is not the identity, and does change
tensors, so `c07_inverse`, `c08_inverse`, `c09_inverse` are not statements about trivial axes. -/

/-- rotation about `z` with cosine 3/5 and sine 4/5 -/
noncomputable def axes345 : Nat → Nat → ℝ := fun i j =>
  if i = 0 ∧ j = 0 then 3 / 5 else if i = 0 ∧ j = 1 then -4 / 5 else
  if i = 1 ∧ j = 0 then 4 / 5 else if i = 1 ∧ j = 1 then 3 / 5 else
  if i = 2 ∧ j = 2 then 1 else 0

theorem axes345_orthogonal : Orthogonal3 axes345 := by
  constructor <;> intro p q hp hq <;>
    (have : p = 0 ∨ p = 1 ∨ p = 2 := by omega) <;> (have : q = 0 ∨ q = 1 ∨ q = 2 := by omega) <;>
    rcases ‹p = 0 ∨ p = 1 ∨ p = 2› with rfl | rfl | rfl <;>
    rcases ‹q = 0 ∨ q = 1 ∨ q = 2› with rfl | rfl | rfl <;>
    norm_num [axes345, sum_range_succ]

example (fx : Mat ℝ) : rot2nd 2 (transposed axes345) (rot2nd 2 axes345 fx) 3 4 = fx 3 4 :=
  c07_inverse 2 axes345 fx axes345_orthogonal 3 4 (by omega) (by omega)

example : rot2nd 1 axes345 (fun x y => if x = 0 ∧ y = 0 then 1 else 0) 0 1 = -12 / 25 := by
  rw [rot2nd_real _ _ _ _ _ (by omega) (by omega)]
  norm_num [rotV, sum_range_succ, axes345]

example : Symm3 6 (fun a b c => ((a + b + c : Nat) : ℝ)) ∧
    Symm4 6 (fun a b c d => ((a + b + c + d : Nat) : ℝ)) := by
  constructor
  · intro a b c _ _ _; push_cast; constructor <;> ring
  · intro a b c d _ _ _ _; push_cast; refine ⟨by ring, by ring, by ring⟩

example (f : T3 ℝ) :
    rot3rd 6 2 (transposed axes345) (rot3rd 6 2 axes345 f) 3 4 0 = f 3 4 0 :=
  c08_inverse 2 axes345 f axes345_orthogonal 3 4 0 (by omega) (by omega) (by omega)

example (f : T4 ℝ) :
    rot4th 6 2 (transposed axes345) (rot4th 6 2 axes345 f) 3 4 0 5 = f 3 4 0 5 :=
  c09_inverse 2 axes345 f axes345_orthogonal 3 4 0 5 (by omega) (by omega) (by omega) (by omega)

end Verif
