import Verif.Lemmas.EquivalentFields
import Verif.Lemmas.EquivalentModes
import Verif.Lemmas.Threefold
import Verif.Lemmas.RovibRun
import Verif.Props.Perturb

/-!
# The inertia tensor of a symmetric molecule

Helpers for the part of C110 which starts from the symmetry of the molecule.
-/

namespace Verif

open Finset

/-- Twice the change of `xᵀ I y` with the displacements `d` (weighted by the roots of the masses), `I` being the tensor of
inertia, if the molecule does not turn. -/
noncomputable def inertiaChange (natom : Nat) (pos : Nat → Nat → ℝ) (mass d x y : Nat → ℝ) : ℝ :=
  ∑ a ∈ range natom, 2 * Real.sqrt (mass a) *
    ((x 0 * y 0 + x 1 * y 1 + x 2 * y 2) * (pos a 0 * d (3 * a) + pos a 1 * d (3 * a + 1) + pos a 2 * d (3 * a + 2)) -
      (pos a 0 * x 0 + pos a 1 * x 1 + pos a 2 * x 2) * (d (3 * a) * y 0 + d (3 * a + 1) * y 1 + d (3 * a + 2) * y 2))

theorem inertia_form {natom : Nat} {pos : Nat → Nat → ℝ} {mass : Nat → ℝ} {lxm : List (List ℝ)} {k : Nat}
    (hE : ∀ p < 3, ∀ q < 3, ∑ a ∈ range natom, Real.sqrt (mass a) * pos a p * columnEntry lxm k (3 * a + q) =
      ∑ a ∈ range natom, Real.sqrt (mass a) * pos a q * columnEntry lxm k (3 * a + p)) (x y : Nat → ℝ) :
    ∑ p ∈ range 3, ∑ q ∈ range 3, inertiaField natom pos mass lxm k p q * x p * y q =
      inertiaChange natom pos mass (columnEntry lxm k) x y := by
  have h01 := hE 0 (by omega) 1 (by omega)
  have h02 := hE 0 (by omega) 2 (by omega)
  have h12 := hE 1 (by omega) 2 (by omega)
  have e0 : (range 3).erase 0 = {1, 2} := rfl
  have e1 : (range 3).erase 1 = {0, 2} := rfl
  have e2 : (range 3).erase 2 = {0, 1} := rfl
  have d : ∀ p q : Nat, ∀ f : Nat → ℝ, p ≠ q → ∑ y ∈ ({p, q} : Finset Nat), f y = f p + f q := fun p q f h => sum_pair h
  have split : inertiaChange natom pos mass (columnEntry lxm k) x y = ∑ p ∈ range 3, ∑ q ∈ range 3,
      (2 * x p * y p * ∑ a ∈ range natom, Real.sqrt (mass a) * pos a q * columnEntry lxm k (3 * a + q) -
        2 * x p * y q * ∑ a ∈ range natom, Real.sqrt (mass a) * pos a p * columnEntry lxm k (3 * a + q)) := by
    unfold inertiaChange
    simp only [sum_range_succ, sum_range_zero, zero_add, mul_sum, ← sum_add_distrib, ← sum_sub_distrib]
    refine sum_congr rfl fun a _ => ?_
    ring_nf
  rw [split]
  simp only [sum_range_succ, sum_range_zero, zero_add, inertiaField, e0, e1, e2]
  simp only [d 1 2 _ (by omega), d 0 2 _ (by omega), d 0 1 _ (by omega), mul_add, sum_add_distrib]
  simp only [if_true, one_ne_zero, OfNat.ofNat_ne_zero, OfNat.ofNat_ne_one, zero_ne_one, if_false, if_neg (show (0:Nat) ≠ 2 by omega),
    if_neg (show (1:Nat) ≠ 2 by omega)]
  norm_num only [min_def, max_def]
  simp only [if_true, if_false]
  simp only [← mul_assoc, add_zero] at h01 h02 h12 ⊢
  rw [← h01, ← h02, ← h12]
  ring_nf

/-- The trilinear form of the inertia derivatives. -/
theorem inertia_along {natom N : Nat} {pos : Nat → Nat → ℝ} {mass : Nat → ℝ} {lxm : List (List ℝ)}
    (hE : ∀ k < N, ∀ p < 3, ∀ q < 3, ∑ a ∈ range natom, Real.sqrt (mass a) * pos a p * columnEntry lxm k (3 * a + q) =
      ∑ a ∈ range natom, Real.sqrt (mass a) * pos a q * columnEntry lxm k (3 * a + p)) (x y u : Nat → ℝ) :
    trilin 3 3 N (fun p q k => inertiaField natom pos mass lxm k p q) x y u =
      inertiaChange natom pos mass (along N (fun _ => 1) (columnEntry lxm) u) x y := by
  have lin : inertiaChange natom pos mass (along N (fun _ => 1) (columnEntry lxm) u) x y =
      ∑ k ∈ range N, u k * inertiaChange natom pos mass (columnEntry lxm k) x y := by
    unfold inertiaChange along
    simp only [Real.sqrt_one, div_one, mul_sum]
    rw [sum_comm]
    refine sum_congr rfl fun a _ => ?_
    simp only [← sum_add_distrib, mul_sum, sum_mul, ← sum_sub_distrib]
    exact sum_congr rfl fun k _ => by ring
  rw [lin, sum_congr rfl fun k hk => by rw [← inertia_form (hE k (mem_range.1 hk)) x y]]
  unfold trilin
  rw [sum_congr rfl fun p _ => sum_comm, sum_comm]
  refine sum_congr rfl fun k _ => ?_
  rw [mul_sum]
  refine sum_congr rfl fun p _ => ?_
  rw [mul_sum]
  exact sum_congr rfl fun q _ => by ring

/-- The change of inertia is the same if molecule, displacements and axes are brought along by an isometry. -/
theorem inertia_brought {natom : Nat} {pos axes f2 : Nat → Nat → ℝ} {mass : Nat → ℝ} {f3 : Nat → Nat → Nat → ℝ}
    {f4 : Nat → Nat → Nat → Nat → ℝ} {π π' : Nat → Nat} {M : Nat → Nat → ℝ} (h : SymmetryOf natom pos mass axes f2 f3 f4 π M)
    (hM : Isometry3 M) (hπ' : ∀ a < natom, π' a < natom) (i1 : ∀ a < natom, π (π' a) = a) (i2 : ∀ a < natom, π' (π a) = a)
    (d x y x' y' : Nat → ℝ) (hx : ∀ c < 3, x' c = M c 0 * x 0 + M c 1 * x 1 + M c 2 * x 2)
    (hy : ∀ c < 3, y' c = M c 0 * y 0 + M c 1 * y 1 + M c 2 * y 2) :
    inertiaChange natom pos mass (brought π M d) x' y' = inertiaChange natom pos mass d x y := by
  unfold inertiaChange
  refine Eq.trans ?_ (renamed h.atom hπ' i1 i2 _)
  refine sum_congr rfl fun a ha => ?_
  have e0 := carried_at π M d a 0 (by norm_num)
  rw [add_zero] at e0
  have e1 := carried_at π M d a 1 (by norm_num)
  have e2 := carried_at π M d a 2 (by norm_num)
  have p := fun c hc => h.places.2 a (mem_range.1 ha) c hc
  rw [e0, e1, e2, p 0 (by omega), p 1 (by omega), p 2 (by omega), hx 0 (by omega), hx 1 (by omega), hx 2 (by omega),
    hy 0 (by omega), hy 1 (by omega), hy 2 (by omega), h.mass a (mem_range.1 ha)]
  have m00 := hM 0 0 (by omega) (by omega)
  have m01 := hM 0 1 (by omega) (by omega)
  have m02 := hM 0 2 (by omega) (by omega)
  have m11 := hM 1 1 (by omega) (by omega)
  have m12 := hM 1 2 (by omega) (by omega)
  have m22 := hM 2 2 (by omega) (by omega)
  norm_num at m00 m01 m02 m11 m12 m22
  have dot : ∀ u0 u1 u2 v0 v1 v2 : ℝ, (M 0 0 * u0 + M 0 1 * u1 + M 0 2 * u2) * (M 0 0 * v0 + M 0 1 * v1 + M 0 2 * v2) +
      (M 1 0 * u0 + M 1 1 * u1 + M 1 2 * u2) * (M 1 0 * v0 + M 1 1 * v1 + M 1 2 * v2) +
      (M 2 0 * u0 + M 2 1 * u1 + M 2 2 * u2) * (M 2 0 * v0 + M 2 1 * v1 + M 2 2 * v2) = u0 * v0 + u1 * v1 + u2 * v2 := by
    intro u0 u1 u2 v0 v1 v2
    linear_combination u0 * v0 * m00 + (u0 * v1 + u1 * v0) * m01 + (u0 * v2 + u2 * v0) * m02 + u1 * v1 * m11 +
      (u1 * v2 + u2 * v1) * m12 + u2 * v2 * m22
  simp only [dot]

/-- A mode whose frequency is not zero does not turn the molecule, if turning the molecule meets no force. -/
theorem no_turn {natom : Nat} {mass : Nat → ℝ} {pos axes f2 : Nat → Nat → ℝ} {w c : ℝ} {lx lxm : List (List ℝ)} {i : Nat}
    (hax : Orthogonal3 axes) (hw : w ≠ 0) (hm : ∀ a < natom, 0 < mass a)
    (hrot : ∀ p q, p < 3 → q < 3 → p ≠ q → ∀ v, form2 (3 * natom) f2 (applyAxes axes (turnedAbout pos p q)) v = 0)
    (hlx : ∀ r < 3 * natom, columnEntry lxm i r = Real.sqrt (mass (r / 3)) * columnEntry lx i r)
    (N1 : ∀ t, c * form2 (3 * natom) f2 t (applyAxes axes (columnEntry lx i)) =
      w * |w| * massForm (3 * natom) mass t (applyAxes axes (columnEntry lx i))) :
    ∀ p < 3, ∀ q < 3, ∑ a ∈ range natom, Real.sqrt (mass a) * pos a p * columnEntry lxm i (3 * a + q) =
      ∑ a ∈ range natom, Real.sqrt (mass a) * pos a q * columnEntry lxm i (3 * a + p) := by
  intro p hp q hq
  by_cases hpq : p = q
  · rw [hpq]
  have e := N1 (applyAxes axes (turnedAbout pos p q))
  rw [hrot p q hp hq hpq, mul_zero, massForm_rotate _ _ _ hax] at e
  have e : massForm (3 * natom) mass (turnedAbout pos p q) (columnEntry lx i) = 0 := by
    rcases mul_eq_zero.1 e.symm with h | h
    · exact absurd h (mul_ne_zero hw (abs_ne_zero.2 hw))
    · exact h
  have s3 : massForm (3 * natom) mass (turnedAbout pos p q) (columnEntry lx i) = ∑ a ∈ range natom,
      (Real.sqrt (mass a) * pos a p * columnEntry lxm i (3 * a + q) - Real.sqrt (mass a) * pos a q * columnEntry lxm i (3 * a + p)) := by
    unfold massForm
    rw [range3]
    refine sum_congr rfl fun a ha => ?_
    have ha := mem_range.1 ha
    have r : ∀ x y : ℝ, Real.sqrt (mass a) * x * (Real.sqrt (mass a) * y) = mass a * (x * y) := fun x y => by
      linear_combination x * y * Real.mul_self_sqrt (hm a ha).le
    rw [hlx _ (by omega), hlx _ (by omega), show (3 * a + q) / 3 = a by omega, show (3 * a + p) / 3 = a by omega, r, r]
    unfold turnedAbout
    rw [show 3 * a / 3 = a by omega, show (3 * a + 1) / 3 = a by omega, show (3 * a + 2) / 3 = a by omega,
      show 3 * a % 3 = 0 by omega, show (3 * a + 1) % 3 = 1 by omega, show (3 * a + 2) % 3 = 2 by omega]
    interval_cases p <;> interval_cases q <;> first | exact absurd rfl hpq | skip
    all_goals
      norm_num
      ring
  rw [s3, sum_sub_distrib] at e
  linarith

section
variable {N : Nat} {modes : List Mode} {s p : Nat → ℝ} {ax : Nat} {w : Nat → ℝ}
  {φ : Nat → Nat → Nat → ℝ} {ψ : Nat → Nat → Nat → Nat → ℝ} {ζ A : Nat → Nat → Nat → ℝ} {B I : Nat → ℝ}

/-- What a threefold axis and a flip say about the constants of vibration and rotation. -/
theorem axial_of (h : Threefold N (nonDeg modes) (degPairs modes) s p ax w φ ψ ζ B) (hI : I 0 = I 1)
    (anti : ∀ i j x, ζ i j x = -ζ j i x) (cubic : ∀ i j k, φ i j k = φ j i k ∧ φ i j k = φ i k j)
    (tensor : ∀ i x y, A i x y = A i y x)
    (turn : ∀ x y u x' y' u', AxesThirdTurn x x' → AxesThirdTurn y y' → ThirdTurn (nonDeg modes) (degPairs modes) s u u' →
      trilin 3 3 N (fun a b i => A i a b) x' y' u' = trilin 3 3 N (fun a b i => A i a b) x y u)
    (flip : ∀ i < N, ∀ a < 3, ∀ b < 3, A i a b = p i * (if a = ax then 1 else -1) * (if b = ax then 1 else -1) * A i a b) :
    (VibRot.mk B I w A ζ φ).Axial modes (fun _ => 1) (1 - ax) ax := by
  have hax := h.axis
  have hn : 1 - ax ≠ ax := by omega
  have h2 : 2 ≠ ax := by omega
  have l2 : 1 - ax < 3 := by omega
  have l3 : ax < 3 := by omega
  have P := axisPair hax
  have gg := g_sq P.sgn
  refine ⟨hI, anti, cubic, tensor, fun k hk => ?_, fun k j hk hj => ?_, fun k k2 hk => ?_, fun j k k2 hj hk => ?_,
    fun k k2 j j2 hk hj _ => ?_, fun k k2 j j2 hk hj => ?_⟩
  · have hk := mem_nonDeg.2 hk
    have e1 := (pair_pair_one turn (h.oneOf hk) P P).1
    have e2 := one_pair_one turn axisOne (h.oneOf hk) P
    rw [gg, one_mul] at e1
    show A k 0 0 = 1 * A k 1 1 ∧ A k 2 0 = 0 ∧ A k 2 1 = 0
    obtain rfl | rfl : ax = 0 ∨ ax = 1 := by omega
    · exact ⟨by rw [one_mul]; exact e1.symm, e2.1, e2.2⟩
    · exact ⟨by rw [one_mul]; exact e1, e2.2, e2.1⟩
  · exact h.z_oo (mem_nonDeg.2 hk) (mem_nonDeg.2 hj)
  · have ht : (k, k2) ∈ degPairs modes := mem_degPairs.2 hk
    obtain ⟨c1, c2⟩ := h.components _ ht
    have f1 := flip k (h.ltf ht)
    have f2 := flip k2 (h.lts ht)
    have gs := g_sq (h.sense _ ht)
    simp only at c1 c2 gs
    have z1 : A k2 ax ax = 0 := by have e := f2 ax l3 ax l3; rw [c2, if_pos rfl] at e; linarith
    have z2 : A k ax (1 - ax) = 0 := by have e := f1 ax l3 _ l2; rw [c1, if_pos rfl, if_neg hn] at e; linarith
    have z3 : A k (1 - ax) ax = 0 := by rw [tensor]; exact z2
    have z4 : A k2 (1 - ax) (1 - ax) = 0 := by have e := f2 _ l2 _ l2; rw [c2, if_neg hn] at e; linarith
    have z5 : A k 2 ax = 0 := by have e := f1 2 (by omega) ax l3; rw [c1, if_neg h2, if_pos rfl] at e; linarith
    have z6 : A k2 2 (1 - ax) = 0 := by have e := f2 2 (by omega) _ l2; rw [c2, if_neg h2, if_neg hn] at e; linarith
    obtain ⟨q1, q2⟩ := one_one_pair turn axisOne axisOne (h.pairOf ht)
    obtain ⟨-, q3⟩ := one_pair_pair turn axisOne P (h.pairOf ht)
    obtain ⟨r1, -, r3⟩ := pair_pair_pair turn P P (h.pairOf ht) z1 z2 z3 z4
    simp only at q1 q2 q3 r1 r3
    rw [gg, neg_one_mul] at r3
    have q4 : A k2 2 ax ^ 2 = A k 2 (1 - ax) ^ 2 := by
      rw [q3]
      linear_combination (-A k2 2 ax ^ 2 * (s k * s k)) * gg - A k2 2 ax ^ 2 * gs
    have r2 : A k2 ax (1 - ax) ^ 2 = A k ax ax ^ 2 := by
      rw [r1]
      linear_combination (A k ax ax ^ 2 * (s k * s k)) * gg + A k ax ax ^ 2 * gs
    show w k2 = w k ∧ A k 2 2 = 0 ∧ A k 0 1 = 0 ∧ A k 0 0 = -A k 1 1 ∧ A k 2 ax = 0 ∧ A k2 2 2 = 0 ∧ A k2 0 0 = 0 ∧
      A k2 1 1 = 0 ∧ A k2 2 (1 - ax) = 0 ∧ A k2 0 1 ^ 2 = A k 0 0 ^ 2 ∧ A k2 2 ax ^ 2 = A k 2 (1 - ax) ^ 2
    refine ⟨h.frequencies _ ht, q1, ?_, ?_, z5, q2, ?_, ?_, z6, ?_, q4⟩ <;>
      obtain rfl | rfl : ax = 0 ∨ ax = 1 := by omega
    · exact z2
    · exact z3
    · rw [show A k 1 1 = _ from r3, neg_neg]
    · exact r3
    · exact z1
    · exact z4
    · exact z4
    · exact z1
    · exact r2
    · rw [show A k 0 0 = _ from r3, tensor k2 0 1, show A k2 1 0 ^ 2 = _ from r2, neg_sq]
  · have hj := mem_nonDeg.2 hj
    have ht : (k, k2) ∈ degPairs modes := mem_degPairs.2 hk
    have gs := g_sq (h.sense _ ht)
    simp only at gs
    obtain ⟨e1, e2⟩ := one_pair_pair h.coriolisTurn (h.oneOf hj) (h.pairOf ht) P
    simp only at e1 e2
    have c := (h.c_ott hj ht ht).1
    simp only [gs, one_mul] at c
    refine ⟨(h.z_ot hj ht).1, (h.z_ot hj ht).2, ?_, ?_, (h.c_oot hj hj ht).1, (h.c_oot hj hj ht).2⟩
    · show ζ j k2 1 ^ 2 = ζ j k 0 ^ 2
      obtain rfl | rfl : ax = 0 ∨ ax = 1 := by omega
      · rw [show ζ j k2 1 = _ from e1]
        linear_combination (ζ j k 0 ^ 2 * (s k * s k)) * gg + ζ j k 0 ^ 2 * gs
      · rw [show ζ j k2 1 = _ from e2]
        show (-(s k * axisSense 1) * ζ j k 0) ^ 2 = _
        linear_combination (ζ j k 0 ^ 2 * (s k * s k)) * gg + ζ j k 0 ^ 2 * gs
    · show φ j k2 k2 = 1 * φ j k k
      rw [one_mul]
      exact c
  · have ht : (k, k2) ∈ degPairs modes := mem_degPairs.2 hk
    have hu : (j, j2) ∈ degPairs modes := mem_degPairs.2 hj
    obtain ⟨t1, t2⟩ := h.components _ ht
    obtain ⟨u1, u2⟩ := h.components _ hu
    have g1 := g_sq (h.sense _ ht)
    have g2 := g_sq (h.sense _ hu)
    simp only at t1 t2 u1 u2 g1 g2
    have z1 : ζ k j (1 - ax) = 0 := by
      have e := h.flipz (h.ltf ht) (h.ltf hu) l2; simp only at e; rw [t1, u1, if_neg hn] at e; linarith
    have z2 : ζ k j2 ax = 0 := by
      have e := h.flipz (h.ltf ht) (h.lts hu) l3; simp only at e; rw [t1, u2, if_pos trivial] at e; linarith
    have z3 : ζ k2 j ax = 0 := by
      have e := h.flipz (h.lts ht) (h.ltf hu) l3; simp only at e; rw [t2, u1, if_pos trivial] at e; linarith
    have z4 : ζ k2 j2 (1 - ax) = 0 := by
      have e := h.flipz (h.lts ht) (h.lts hu) l2; simp only at e; rw [t2, u2, if_neg hn] at e; linarith
    obtain ⟨e1, e2, e3⟩ := pair_pair_pair h.coriolisTurn (h.pairOf ht) (h.pairOf hu) P z1 z2 z3 z4
    simp only at e1 e2 e3
    obtain ⟨a1, a2, a3⟩ := h.z_tt2 ht hu
    refine ⟨a1, a2, a3, ?_, ?_, ?_⟩
    · show ζ k2 j2 1 ^ 2 = ζ k j 1 ^ 2
      obtain rfl | rfl : ax = 0 ∨ ax = 1 := by omega
      · rw [show ζ k2 j2 1 = 0 from z4, show ζ k j 1 = 0 from z1]
      · rw [e3]
        linear_combination (ζ k j 1 ^ 2 * (s j * s j)) * g1 + ζ k j 1 ^ 2 * g2
    · show ζ k j2 1 ^ 2 = ζ k j 0 ^ 2
      obtain rfl | rfl : ax = 0 ∨ ax = 1 := by omega
      · rw [show ζ k j2 1 = _ from e1]
        linear_combination (ζ k j 0 ^ 2 * (s j * s j)) * gg + ζ k j 0 ^ 2 * g2
      · rw [show ζ k j2 1 = 0 from z2, show ζ k j 0 = 0 from z1]
    · show ζ k2 j 1 ^ 2 = ζ k j 0 ^ 2
      obtain rfl | rfl : ax = 0 ∨ ax = 1 := by omega
      · rw [show ζ k2 j 1 = _ from e2]
        linear_combination (ζ k j 0 ^ 2 * (s k * s k)) * gg + ζ k j 0 ^ 2 * g1
      · rw [show ζ k2 j 1 = 0 from z3, show ζ k j 0 = 0 from z1]
  · have ht : (k, k2) ∈ degPairs modes := mem_degPairs.2 hk
    have hu : (j, j2) ∈ degPairs modes := mem_degPairs.2 hj
    have g1 := g_sq (h.sense _ ht)
    have a := h.c_odd ht ht hu
    have b := (h.c_ttt ht ht hu).2.2
    rw [g1, neg_one_mul] at b
    exact ⟨a.1, a.2.2.2, b⟩

end

theorem inertiaChange_congr {natom : Nat} {pos : Nat → Nat → ℝ} {mass d d' : Nat → ℝ} (h : ∀ r < 3 * natom, d r = d' r) (x y : Nat → ℝ) :
    inertiaChange natom pos mass d x y = inertiaChange natom pos mass d' x y := by
  unfold inertiaChange
  refine sum_congr rfl fun a ha => ?_
  have := mem_range.1 ha
  rw [h _ (by omega), h _ (by omega), h _ (by omega)]

theorem inertiaChange_smul {natom : Nat} {pos : Nat → Nat → ℝ} {mass : Nat → ℝ} (c : ℝ) (d x y : Nat → ℝ) :
    inertiaChange natom pos mass (fun r => c * d r) x y = c * inertiaChange natom pos mass d x y := by
  unfold inertiaChange
  rw [mul_sum]
  exact sum_congr rfl fun a _ => by ring

section
variable {natom N : Nat} {modes : List Mode} {s p w mass B I : Nat → ℝ} {ax : Nat}
  {pos axes f2 : Nat → Nat → ℝ} {f3 : Nat → Nat → Nat → ℝ} {f4 : Nat → Nat → Nat → Nat → ℝ} {lx lxm : List (List ℝ)}
  {π ρ π' ρ' : Nat → Nat} {e : ℝ}

/-- What the symmetry of the molecule says about its constants of vibration and rotation. -/
theorem axial_molecule (hT : Threefold N (nonDeg modes) (degPairs modes) s p ax w (cubicField (3 * natom) axes f3 w lx)
      (quarticField (3 * natom) axes f4 w lx) (zetaField natom lxm) B) (hI : I 0 = I 1) (hf3 : Symm3 (3 * natom) f3)
    (hπ : SymmetryOf natom pos mass axes f2 f3 f4 π thirdTurn)
    (hρ : SymmetryOf natom pos mass axes f2 f3 f4 ρ (flipAxes e)) (hπ' : ∀ a < natom, π' a < natom)
    (hρ' : ∀ a < natom, ρ' a < natom) (i1 : ∀ a < natom, π (π' a) = a) (i2 : ∀ a < natom, π' (π a) = a)
    (i3 : ∀ a < natom, ρ (ρ' a) = a) (i4 : ∀ a < natom, ρ' (ρ a) = a)
    (he : e = 1 ∧ ax = 1 ∨ e = -1 ∧ ax = 0)
    (hlx : ∀ i < N, ∀ r < 3 * natom, columnEntry lxm i r = Real.sqrt (mass (r / 3)) * columnEntry lx i r)
    (hE : ∀ k < N, ∀ p < 3, ∀ q < 3, ∑ a ∈ range natom, Real.sqrt (mass a) * pos a p * columnEntry lxm k (3 * a + q) =
      ∑ a ∈ range natom, Real.sqrt (mass a) * pos a q * columnEntry lxm k (3 * a + p))
    (h1 : ∀ k ∈ nonDeg modes, ∀ r < 3 * natom, brought π thirdTurn (columnEntry lx k) r = columnEntry lx k r)
    (h2 : ∀ t ∈ degPairs modes, ∀ r < 3 * natom, brought π thirdTurn (columnEntry lx t.1) r =
      -1 / 2 * columnEntry lx t.1 r + s t.1 * (Real.sqrt 3 / 2) * columnEntry lx t.2 r)
    (h3 : ∀ t ∈ degPairs modes, ∀ r < 3 * natom, brought π thirdTurn (columnEntry lx t.2) r =
      -(s t.1 * (Real.sqrt 3 / 2)) * columnEntry lx t.1 r + -1 / 2 * columnEntry lx t.2 r)
    (hf : ∀ i < N, ∀ r < 3 * natom, brought ρ (flipAxes e) (columnEntry lx i) r = p i * columnEntry lx i r) :
    (VibRot.mk B I w (inertiaField natom pos mass lxm) (zetaField natom lxm) (cubicField (3 * natom) axes f3 w lx)).Axial
      modes (fun _ => 1) (1 - ax) ax := by
  have mem : ∀ i, i ∈ nonDeg modes ++ (degPairs modes).map (·.1) ++ (degPairs modes).map (·.2) → i < N := fun i hi =>
    List.mem_range.1 (hT.modes.mem_iff.1 hi)
  have l1 : ∀ k ∈ nonDeg modes, k < N := fun k hk => mem k (by simp only [List.mem_append]; exact .inl (.inl hk))
  have l2 : ∀ t ∈ degPairs modes, t.1 < N := fun t ht => mem _ (by
    simp only [List.mem_append, List.mem_map]; exact .inl (.inr ⟨t, ht, rfl⟩))
  have l3 : ∀ t ∈ degPairs modes, t.2 < N := fun t ht => mem _ (by simp only [List.mem_append, List.mem_map]; exact .inr ⟨t, ht, rfl⟩)
  have wt : ∀ i < N, ∀ r < 3 * natom, brought π thirdTurn (columnEntry lxm i) r =
      Real.sqrt (mass (r / 3)) * brought π thirdTurn (columnEntry lx i) r := fun i hi r hr =>
    carried_weighted (n := natom) (f := fun a => Real.sqrt (mass a)) hπ.atom _ (fun a ha => by rw [hπ.mass a ha]) (hlx i hi) r hr
  have wf : ∀ i < N, ∀ r < 3 * natom, brought ρ (flipAxes e) (columnEntry lxm i) r =
      Real.sqrt (mass (r / 3)) * brought ρ (flipAxes e) (columnEntry lx i) r := fun i hi r hr =>
    carried_weighted (n := natom) (f := fun a => Real.sqrt (mass a)) hρ.atom _ (fun a ha => by rw [hρ.mass a ha]) (hlx i hi) r hr
  have h1' : ∀ k ∈ nonDeg modes, ∀ r < 3 * natom, brought π thirdTurn (columnEntry lxm k) r = columnEntry lxm k r := fun k hk r hr => by
    rw [wt k (l1 k hk) r hr, h1 k hk r hr, hlx k (l1 k hk) r hr]
  have h2' : ∀ t ∈ degPairs modes, ∀ r < 3 * natom, brought π thirdTurn (columnEntry lxm t.1) r =
      -1 / 2 * columnEntry lxm t.1 r + s t.1 * (Real.sqrt 3 / 2) * columnEntry lxm t.2 r := fun t ht r hr => by
    rw [wt _ (l2 t ht) r hr, h2 t ht r hr, hlx _ (l2 t ht) r hr, hlx _ (l3 t ht) r hr]; ring
  have h3' : ∀ t ∈ degPairs modes, ∀ r < 3 * natom, brought π thirdTurn (columnEntry lxm t.2) r =
      -(s t.1 * (Real.sqrt 3 / 2)) * columnEntry lxm t.1 r + -1 / 2 * columnEntry lxm t.2 r := fun t ht r hr => by
    rw [wt _ (l3 t ht) r hr, h3 t ht r hr, hlx _ (l2 t ht) r hr, hlx _ (l3 t ht) r hr]; ring
  have hf' : ∀ i < N, ∀ r < 3 * natom, brought ρ (flipAxes e) (columnEntry lxm i) r = p i * columnEntry lxm i r := fun i hi r hr => by
    rw [wf i hi r hr, hf i hi r hr, hlx i hi r hr]; ring
  refine axial_of hT hI (zetaField_anti natom lxm) (fun i j k => ?_) (fun i x y => inertiaField_symm ..)
    (fun x y u x' y' u' hx hy hu => ?_) (fun i hi a ha b hb => ?_)
  · exact cubicField_symm hf3 axes w lx (i + j + k + 1) i j k (by omega) (by omega) (by omega)
  · rw [inertia_along hE, inertia_along hE,
      inertiaChange_congr (along_turn (w := fun _ => 1) hT.modes (fun _ _ => rfl) h1' h2' h3' hu)]
    have vec : ∀ {x x' : Nat → ℝ}, AxesThirdTurn x x' → ∀ c < 3,
        x' c = thirdTurn c 0 * x 0 + thirdTurn c 1 * x 1 + thirdTurn c 2 * x 2 := by
      rintro x x' ⟨h0, h1, h2⟩ c hc
      interval_cases c
      · rw [h0]; simp [thirdTurn]; ring
      · rw [h1]; simp [thirdTurn]; ring
      · rw [h2]; simp [thirdTurn]
    exact inertia_brought hπ thirdTurn_isometry hπ' i1 i2 _ x y x' y' (vec hx) (vec hy)
  · have one : ∀ a < 3, ∀ b < 3, ∑ p ∈ range 3, ∑ q ∈ range 3, inertiaField natom pos mass lxm i p q *
        (if p = a then 1 else 0) * (if q = b then 1 else 0) = inertiaField natom pos mass lxm i a b := by
      intro a ha b hb
      simp only [mul_ite, mul_one, mul_zero, sum_ite_eq', mem_range, if_pos hb, if_pos ha]
    have hee : e = 1 ∨ e = -1 := he.imp And.left And.left
    have k1 := inertia_form (hE i hi) (fun p => if p = a then 1 else 0) (fun p => if p = b then 1 else 0)
    rw [one a ha b hb] at k1
    have vec : ∀ a < 3, ∀ c < 3, flipAxes e c a * (if c = a then (1 : ℝ) else 0) = flipAxes e c 0 * (if 0 = a then 1 else 0) +
        flipAxes e c 1 * (if 1 = a then 1 else 0) + flipAxes e c 2 * (if 2 = a then 1 else 0) := by
      intro a ha c hc
      interval_cases a <;> interval_cases c <;> simp [flipAxes]
    have k2 := inertia_brought hρ (flipAxes_isometry hee) hρ' i3 i4 (columnEntry lxm i) (fun p => if p = a then 1 else 0)
      (fun p => if p = b then 1 else 0) (fun c => flipAxes e c a * (if c = a then (1 : ℝ) else 0))
      (fun c => flipAxes e c b * (if c = b then (1 : ℝ) else 0)) (vec a ha) (vec b hb)
    rw [inertiaChange_congr (hf' i hi), inertiaChange_smul, ← k1, ← inertia_form (hE i hi)] at k2
    have k3 : ∑ p ∈ range 3, ∑ q ∈ range 3, inertiaField natom pos mass lxm i p q *
        (flipAxes e p a * if p = a then 1 else 0) * (flipAxes e q b * if q = b then 1 else 0) =
        flipAxes e a a * flipAxes e b b * inertiaField natom pos mass lxm i a b := by
      rw [← one a ha b hb, mul_sum]
      refine sum_congr rfl fun p _ => ?_
      rw [mul_sum]
      refine sum_congr rfl fun q _ => ?_
      by_cases h : p = a <;> by_cases h' : q = b <;> simp [h, h']
      ring
    rw [k3] at k2
    refine k2.symm.trans ?_
    rcases he with ⟨rfl, rfl⟩ | ⟨rfl, rfl⟩ <;> interval_cases a <;> interval_cases b <;> simp [flipAxes]

end

end Verif
