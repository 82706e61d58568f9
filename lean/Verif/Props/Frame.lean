import Verif.Props.Rotate
import Verif.Props.Signs

/-!
# The orientation of the input does not matter (C97)
-/

namespace Verif

open Finset

variable {ι : Type}

theorem rot2nd_out (natom : Nat) (axes fx : Mat ℝ) (x y : Nat) (h : ¬ (x < 3 * natom ∧ y < 3 * natom)) :
    rot2nd natom axes fx x y = 0 := by
  unfold rot2nd
  rw [foldl_obs_const (fun r : Mat ℝ => r x y)]
  · simp [lit_real]
  · rintro t ⟨a, b⟩ hm
    rw [mem_pairs] at hm
    simp only [rot2Step, setBlock2]
    rw [if_neg (by omega)]

theorem rot3rd_out (natom : Nat) (axes : Mat ℝ) (f : T3 ℝ) (x y z : Nat)
    (h : ¬ (x < 3 * natom ∧ y < 3 * natom ∧ z < 3 * natom)) : rot3rd (3 * natom) natom axes f x y z = 0 := by
  unfold rot3rd
  rw [foldl_obs_const (fun r : T3 ℝ => r x y z), foldl_obs_const (fun r : T3 ℝ => r x y z)]
  · simp [lit_real]
  · rintro t ⟨i, a, b⟩ hm
    rw [mem_triples] at hm
    simp only [rot3Step1, setBlock3a]
    rw [if_neg (by omega)]
  · rintro t ⟨i, a, b⟩ hm
    rw [mem_triples] at hm
    simp only [rot3Step2, setBlock3b]
    rw [if_neg (by omega)]

theorem rot4th_out (natom : Nat) (axes : Mat ℝ) (f : T4 ℝ) (x y z w : Nat)
    (h : ¬ (x < 3 * natom ∧ y < 3 * natom ∧ z < 3 * natom ∧ w < 3 * natom)) :
    rot4th (3 * natom) natom axes f x y z w = 0 := by
  unfold rot4th
  rw [foldl_obs_const (fun r : T4 ℝ => r x y z w), foldl_obs_const (fun r : T4 ℝ => r x y z w)]
  · simp [lit_real]
  · rintro t ⟨i, j, a, b⟩ hm
    rw [mem_quads] at hm
    simp only [rot4Step1, setBlock4a]
    rw [if_neg (by omega)]
  · rintro t ⟨i, j, a, b⟩ hm
    rw [mem_quads] at hm
    simp only [rot4Step2, setBlock4b]
    rw [if_neg (by omega)]

/-- The displacement of the single coordinate `x`. -/
def single (x : Nat) : Nat → ℝ := fun y => if y = x then 1 else 0

theorem form2_single (n : Nat) (f : Nat → Nat → ℝ) {x y : Nat} (hx : x < n) (hy : y < n) :
    form2 n f (single x) (single y) = f x y := by
  simp [form2, single, hx, hy]

theorem form3_single (n : Nat) (f : Nat → Nat → Nat → ℝ) {x y z : Nat} (hx : x < n) (hy : y < n) (hz : z < n) :
    form3 n f (single x) (single y) (single z) = f x y z := by
  simp [form3, single, hx, hy, hz]

theorem form4_single (n : Nat) (f : Nat → Nat → Nat → Nat → ℝ) {x y z w : Nat} (hx : x < n) (hy : y < n) (hz : z < n)
    (hw : w < n) : form4 n f (single x) (single y) (single z) (single w) = f x y z w := by
  simp [form4, single, hx, hy, hz, hw]

theorem applyAxes_mul {R axes axes' : Nat → Nat → ℝ}
    (h : ∀ p < 3, ∀ q < 3, axes' p q = ∑ u ∈ range 3, R p u * axes u q) (u : Nat → ℝ) :
    applyAxes axes' u = applyAxes R (applyAxes axes u) := by
  funext x
  have hx : x % 3 < 3 := Nat.mod_lt _ (by omega)
  have e : ∀ p, p < 3 → (3 * (x / 3) + p) % 3 = p ∧ (3 * (x / 3) + p) / 3 = x / 3 := by
    intro p hp; omega
  simp only [applyAxes, sum_range_succ, sum_range_zero, zero_add, h _ hx 0 (by omega), h _ hx 1 (by omega),
    h _ hx 2 (by omega), (e 0 (by omega)).1, (e 0 (by omega)).2, (e 1 (by omega)).1, (e 1 (by omega)).2,
    (e 2 (by omega)).1, (e 2 (by omega)).2]
  ring

section
variable {natom : Nat} {R axes axes' : Nat → Nat → ℝ}
  (ha : ∀ p < 3, ∀ q < 3, axes' p q = ∑ u ∈ range 3, R p u * axes u q)
include ha

theorem rot2nd_turn {f f' : Mat ℝ}
    (h : ∀ u v, form2 (3 * natom) f' (applyAxes R u) (applyAxes R v) = form2 (3 * natom) f u v) :
    rot2nd natom axes' f' = rot2nd natom axes f := by
  funext x y
  by_cases hr : x < 3 * natom ∧ y < 3 * natom
  · rw [← form2_single (3 * natom) (rot2nd natom axes' f') hr.1 hr.2,
      ← form2_single (3 * natom) (rot2nd natom axes f) hr.1 hr.2, c07_form, c07_form, applyAxes_mul ha,
      applyAxes_mul ha, h]
  · rw [rot2nd_out _ _ _ _ _ hr, rot2nd_out _ _ _ _ _ hr]

theorem rot3rd_turn {f f' : T3 ℝ}
    (h : ∀ u v w, form3 (3 * natom) f' (applyAxes R u) (applyAxes R v) (applyAxes R w) = form3 (3 * natom) f u v w) :
    rot3rd (3 * natom) natom axes' f' = rot3rd (3 * natom) natom axes f := by
  funext x y z
  by_cases hr : x < 3 * natom ∧ y < 3 * natom ∧ z < 3 * natom
  · rw [← form3_single (3 * natom) (rot3rd (3 * natom) natom axes' f') hr.1 hr.2.1 hr.2.2,
      ← form3_single (3 * natom) (rot3rd (3 * natom) natom axes f) hr.1 hr.2.1 hr.2.2, c08_form, c08_form,
      applyAxes_mul ha, applyAxes_mul ha, applyAxes_mul ha, h]
  · rw [rot3rd_out _ _ _ _ _ _ hr, rot3rd_out _ _ _ _ _ _ hr]

theorem rot4th_turn {f f' : T4 ℝ}
    (h : ∀ u v w s, form4 (3 * natom) f' (applyAxes R u) (applyAxes R v) (applyAxes R w) (applyAxes R s) =
      form4 (3 * natom) f u v w s) :
    rot4th (3 * natom) natom axes' f' = rot4th (3 * natom) natom axes f := by
  funext x y z w
  by_cases hr : x < 3 * natom ∧ y < 3 * natom ∧ z < 3 * natom ∧ w < 3 * natom
  · rw [← form4_single (3 * natom) (rot4th (3 * natom) natom axes' f') hr.1 hr.2.1 hr.2.2.1 hr.2.2.2,
      ← form4_single (3 * natom) (rot4th (3 * natom) natom axes f) hr.1 hr.2.1 hr.2.2.1 hr.2.2.2, c09_form, c09_form,
      applyAxes_mul ha, applyAxes_mul ha, applyAxes_mul ha, applyAxes_mul ha, h]
  · rw [rot4th_out _ _ _ _ _ _ _ hr, rot4th_out _ _ _ _ _ _ _ hr]

end

/-- C97, harmonic runs: when the principal axes and the Hessian are given in a turned frame (`R`), the run is the
same, panics included, whatever the eigensolver and the symmetry code return and for every kind of rotor. -/
theorem c97_harmonic (s : SpectroIn ℝ) (o : Oracles ℝ ι) (R axes' : Mat ℝ) (fc2 fc2' : Mat ℝ)
    (ha : ∀ p < 3, ∀ q < 3, axes' p q = ∑ u ∈ range 3, R p u * s.axes u q)
    (h2 : ∀ u v, form2 (3 * s.natom) fc2' (applyAxes R u) (applyAxes R v) = form2 (3 * s.natom) fc2 u v) :
    run { s with axes := axes' } o (.harmonic fc2') = run s o (.harmonic fc2) := by
  simp only [run, runModes, Derivative.fc2, rot2nd_turn ha h2]
  rfl

/-- C97: when the principal axes and the force constants are given in a turned frame (`R`), the run is the same. -/
theorem c97_quartic (s : SpectroIn ℝ) (o : Oracles ℝ ι) (R axes' : Mat ℝ) (fc2 fc2' : Mat ℝ) (f3x f3x' : T3 ℝ)
    (f4x f4x' : T4 ℝ) (hn : s.n3n = 3 * s.natom)
    (ha : ∀ p < 3, ∀ q < 3, axes' p q = ∑ u ∈ range 3, R p u * s.axes u q)
    (h2 : ∀ u v, form2 s.n3n fc2' (applyAxes R u) (applyAxes R v) = form2 s.n3n fc2 u v)
    (h3 : ∀ u v w, form3 s.n3n f3x' (applyAxes R u) (applyAxes R v) (applyAxes R w) = form3 s.n3n f3x u v w)
    (h4 : ∀ u v w t, form4 s.n3n f4x' (applyAxes R u) (applyAxes R v) (applyAxes R w) (applyAxes R t) =
      form4 s.n3n f4x u v w t) :
    run { s with axes := axes' } o (.quartic fc2' f3x' f4x') = run s o (.quartic fc2 f3x f4x) := by
  rw [hn] at h2 h3 h4
  have e3 : rot3rd s.n3n s.natom axes' f3x' = rot3rd s.n3n s.natom s.axes f3x := by
    rw [hn]
    exact rot3rd_turn ha h3
  have e4 : rot4th s.n3n s.natom axes' f4x' = rot4th s.n3n s.natom s.axes f4x := by
    rw [hn]
    exact rot4th_turn ha h4
  simp only [run, runModes, Derivative.fc2, rot2nd_turn ha h2, e3, e4]
  rfl

/-- A turn by the angle of the 3-4-5 triangle about the third axis. -/
noncomputable def turn345 : Nat → Nat → ℝ := fun p q =>
  if p = 0 ∧ q = 0 ∨ p = 1 ∧ q = 1 then 3 / 5 else if p = 1 ∧ q = 0 then 4 / 5 else if p = 0 ∧ q = 1 then -(4 / 5)
  else if p = 2 ∧ q = 2 then 1 else 0

theorem turn345_orthogonal : Orthogonal3 turn345 := by
  refine ⟨?_, ?_⟩ <;> intro p q hp hq <;> interval_cases p <;> interval_cases q <;>
    norm_num [turn345, sum_range_succ]

theorem applyAxes_turnBack {R : Nat → Nat → ℝ} (h : Orthogonal3 R) (u : Nat → ℝ) :
    applyAxes (transposed R) (applyAxes R u) = u := by
  funext x
  rw [applyAxes]
  exact applyAxes_back h u x

/-- Force constants in a turned frame, as in the hypotheses of `c97_harmonic` and `c97_quartic`: any force constants
can be turned by any orthogonal matrix. -/
theorem turned_tensors {natom : Nat} {R : Nat → Nat → ℝ} (h : Orthogonal3 R) (fc2 : Mat ℝ) (f3x : T3 ℝ) (f4x : T4 ℝ) :
    (∀ u v, form2 (3 * natom) (rot2nd natom (transposed R) fc2) (applyAxes R u) (applyAxes R v) =
      form2 (3 * natom) fc2 u v) ∧
    (∀ u v w, form3 (3 * natom) (rot3rd (3 * natom) natom (transposed R) f3x) (applyAxes R u) (applyAxes R v)
      (applyAxes R w) = form3 (3 * natom) f3x u v w) ∧
    ∀ u v w t, form4 (3 * natom) (rot4th (3 * natom) natom (transposed R) f4x) (applyAxes R u) (applyAxes R v)
      (applyAxes R w) (applyAxes R t) = form4 (3 * natom) f4x u v w t := by
  refine ⟨fun u v => ?_, fun u v w => ?_, fun u v w t => ?_⟩
  · rw [c07_form, applyAxes_turnBack h, applyAxes_turnBack h]
  · rw [c08_form, applyAxes_turnBack h, applyAxes_turnBack h, applyAxes_turnBack h]
  · rw [c09_form, applyAxes_turnBack h, applyAxes_turnBack h, applyAxes_turnBack h, applyAxes_turnBack h]

/-- A run that meets the hypotheses of `c97_harmonic` and `c97_quartic`, completes and has cubic couplings. -/
example : ∃ (fc2 : Mat ℝ) (f3x : T3 ℝ) (f4x : T4 ℝ) (out : Output ℝ Nat),
    exampleTop.n3n = 3 * exampleTop.natom ∧
    (∀ u v, form2 exampleTop.n3n (rot2nd exampleTop.natom (transposed turn345) fc2) (applyAxes turn345 u)
      (applyAxes turn345 v) = form2 exampleTop.n3n fc2 u v) ∧
    (∀ u v w, form3 exampleTop.n3n (rot3rd exampleTop.n3n exampleTop.natom (transposed turn345) f3x)
      (applyAxes turn345 u) (applyAxes turn345 v) (applyAxes turn345 w) = form3 exampleTop.n3n f3x u v w) ∧
    (∀ u v w t, form4 exampleTop.n3n (rot4th exampleTop.n3n exampleTop.natom (transposed turn345) f4x)
      (applyAxes turn345 u) (applyAxes turn345 v) (applyAxes turn345 w) (applyAxes turn345 t) =
      form4 exampleTop.n3n f4x u v w t) ∧
    run exampleTop exactOracles2 (.quartic fc2 f3x f4x) = some out ∧
    cubicField exampleTop.n3n exampleTop.axes f3x (entryOf out.harms) out.lx 0 1 2 = 70 := by
  obtain ⟨fc2, f3x, f4x, out, h3, h4, h, hw, hF⟩ := equal_run 100 70 (by norm_num)
  obtain ⟨a, b, c⟩ := turned_tensors (natom := exampleTop.natom) turn345_orthogonal fc2 f3x f4x
  exact ⟨fc2, f3x, f4x, out, rfl, a, b, c, h, hF 0 1 2 (by decide) (by decide) (by decide)⟩

end Verif
