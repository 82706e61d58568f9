import Verif.Spec.Normal
import Verif.Spec.Xcalc
import Verif.Spec.Energy
import Mathlib.Analysis.SpecialFunctions.Pow.Real

/-!
# From the input to the reported numbers: what they should be

Everything is expressed through the data of the input (derivatives in the axes of the input, masses, rotational
constants) and the lists a run reports (harmonic frequencies, mode columns, resonances).
-/

namespace Verif

open Finset

/-- Entry `r` of column `i` of a matrix given by its columns. -/
def columnEntry (cols : List (List ℝ)) (i r : Nat) : ℝ := (cols.getD i []).getD r 0

/-- Number `i` of a list. -/
def entryOf (l : List ℝ) (i : Nat) : ℝ := l.getD i 0

/-- The cubic constant of three modes in cm⁻¹: the third derivatives along the three displacements, taken back to
the axes of the input. -/
noncomputable def cubicField (n : Nat) (axes : Nat → Nat → ℝ) (f3x : Nat → Nat → Nat → ℝ) (w : Nat → ℝ)
    (lx : List (List ℝ)) (i j k : Nat) : ℝ :=
  cubicUnit / Real.sqrt (w i * w j * w k) * form3 n f3x (applyAxes axes (columnEntry lx i))
    (applyAxes axes (columnEntry lx j)) (applyAxes axes (columnEntry lx k))

/-- The quartic constant of four modes in cm⁻¹. -/
noncomputable def quarticField (n : Nat) (axes : Nat → Nat → ℝ) (f4x : Nat → Nat → Nat → Nat → ℝ) (w : Nat → ℝ)
    (lx : List (List ℝ)) (i j k l : Nat) : ℝ :=
  quarticUnit / Real.sqrt (w i * w j * w k * w l) * form4 n f4x (applyAxes axes (columnEntry lx i))
    (applyAxes axes (columnEntry lx j)) (applyAxes axes (columnEntry lx k)) (applyAxes axes (columnEntry lx l))

/-- The Coriolis constant of two modes about axis `x`. -/
noncomputable def zetaField (natom : Nat) (lxm : List (List ℝ)) (i j x : Nat) : ℝ :=
  angularForm natom x (columnEntry lxm i) (columnEntry lxm j)

/-- The derivative of component `(p, q)` of the inertia tensor along mode `k` (for a mode without angular momentum,
see C62). -/
noncomputable def inertiaField (natom : Nat) (pos : Nat → Nat → ℝ) (mass : Nat → ℝ) (lxm : List (List ℝ))
    (k p q : Nat) : ℝ :=
  if p = q then 2 * ∑ a ∈ range natom, Real.sqrt (mass a) *
    ∑ y ∈ (range 3).erase p, pos a y * columnEntry lxm k (3 * a + y)
  else -(2 * ∑ a ∈ range natom, Real.sqrt (mass a) * pos a (min p q) * columnEntry lxm k (3 * a + max p q))

/-- The anharmonic constants of second-order perturbation theory, fractions of listed resonances left out. -/
noncomputable def xSpec (R : Nat → Nat → Nat → Prop) (n : Nat) (w : Nat → ℝ) (F3 : Nat → Nat → Nat → ℝ)
    (F4 : Nat → Nat → Nat → Nat → ℝ) (zeta : Nat → Nat → Nat → ℝ) (B : Nat → ℝ) (k l : Nat) : ℝ :=
  if k = l then xkkSpec R n w F3 F4 k else xklSpec R n w F3 F4 zeta B (max k l) (min k l)

/-- No denominator that is used vanishes: neither a frequency nor a combination of frequencies, except combinations
of modes listed as resonant. -/
def Regular (R : Nat → Nat → Nat → Prop) (n : Nat) (w : Nat → ℝ) : Prop :=
  (∀ k l, k < n → l < n → ¬ R k k l → w l ≠ 0 ∧ 2 * w k + w l ≠ 0 ∧ 2 * w k - w l ≠ 0) ∧
  ∀ k l m, k < n → l < k → m < n → ¬ R k l m → ¬ R l m k → ¬ R k m l →
    w k + w l + w m ≠ 0 ∧ w k - w l + w m ≠ 0 ∧ w k + w l - w m ≠ 0 ∧ -w k + w l + w m ≠ 0

/-- The term of modes `i` and `j` in the vibration-rotation constants, `res` saying that they resonate: the
perturbation formula, or what is left of it without the part that is singular for equal frequencies. -/
noncomputable def rotationTerm (z wi wj : ℝ) : ℝ := z ^ 2 * (3 * wi ^ 2 + wj ^ 2) / (wi ^ 2 - wj ^ 2)

/-- See `rotationTerm`. -/
noncomputable def rotationTermRes (z wi wj : ℝ) : ℝ := -(z ^ 2 * (wi - wj) ^ 2 / (2 * (wj * (wi + wj))))

open Classical in
/-- The vibration-rotation constant of mode `i` about axis `x`; `A k p q` are the derivatives of the inertia tensor,
`I` the principal moments. -/
noncomputable def alphaSpec (R : Nat → Nat → Nat → Prop) (n : Nat) (B I w : Nat → ℝ) (A : Nat → Nat → Nat → ℝ)
    (zeta F3 : Nat → Nat → Nat → ℝ) (i x : Nat) : ℝ :=
  2 * B x ^ 2 / w i *
    (3 / 4 * ∑ y ∈ range 3, A i x y ^ 2 / I y +
      ∑ j ∈ (range n).erase i, (if R i j x then rotationTermRes (zeta i j x) (w i) (w j)
        else rotationTerm (zeta i j x) (w i) (w j)) +
      0.086112 * ∑ j ∈ range n, A j x x * F3 i i j * w i / w j ^ (3 / 2 : ℝ))

/-- The overtones `(i, i)` and combinations `(i, j)`, `i < j`, which push the fundamental of mode `k`, in the order
in which they do: those with a listed resonance to `k` and to no higher mode. -/
def couplings (n : Nat) (f1 : List Fermi1) (f2 : List Fermi2) (k : Nat) : List (Nat × Nat) :=
  (List.range n).flatMap fun i =>
    (if (⟨i, k⟩ : Fermi1) ∈ f1 ∧ ∀ f ∈ f1, f.i = i → f.j ≤ k then [(i, i)] else []) ++
    ((List.range n).filter fun j => i < j ∧ (⟨j, i, k⟩ : Fermi2) ∈ f2 ∧ ∀ f ∈ f2, f.i = j → f.j = i → f.k ≤ k).map
      fun j => (i, j)

/-- The energy above the ground state of the overtone `(i, i)` or the combination `(i, j)` for fundamentals `nu` and
anharmonic constants `x`. -/
noncomputable def pairLevel (nu : Nat → ℝ) (x : Nat → Nat → ℝ) (p : Nat × Nat) : ℝ :=
  if p.1 = p.2 then 2 * nu p.1 + 2 * x p.1 p.1 else nu p.1 + nu p.2 + x p.1 p.2

/-- The matrix element between an overtone or a combination and the fundamental of mode `k`. -/
noncomputable def pairCoupling (F3 : Nat → Nat → Nat → ℝ) (p : Nat × Nat) (k : Nat) : ℝ :=
  if p.1 = p.2 then F3 p.1 p.1 k / 4 else F3 p.1 p.2 k / (2 * Real.sqrt 2)

/-- The fundamental of mode `k` after each of its couplings has been treated as a two-level problem, one after the
other. -/
noncomputable def pushed (n : Nat) (f1 : List Fermi1) (f2 : List Fermi2) (nu : Nat → ℝ) (x : Nat → Nat → ℝ)
    (F3 : Nat → Nat → Nat → ℝ) (k : Nat) : ℝ :=
  (couplings n f1 f2 k).foldl (fun e p => (twoLevel (pairLevel nu x p) e (pairCoupling F3 p k)).2) (nu k)

/-- The distortion constants of the asymmetric top that can be observed, from the constants `τ`. -/
noncomputable def tauPair (τ : Nat → Nat → Nat → Nat → ℝ) (i j : Nat) : ℝ :=
  if i = j then τ i i i i else τ i i j j + 2 * τ i j i j

end Verif
