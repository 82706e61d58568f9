import Verif.Lemmas.Equivalent
import Verif.Spec.Threefold
import Verif.Spec.Whole
import Verif.Lemmas.Whole
import Verif.Props.SymSolver

/-!
# The constants of the modes of a symmetric molecule

Helpers for C106.
-/

namespace Verif

open Finset

section
variable {n N : Nat}

theorem form3_sums (f : Nat → Nat → Nat → ℝ) (x : Nat → Nat → ℝ) (a b c : Nat → ℝ) :
    form3 n f (fun r => ∑ i ∈ range N, a i * x i r) (fun r => ∑ i ∈ range N, b i * x i r) (fun r => ∑ i ∈ range N, c i * x i r) =
      ∑ i ∈ range N, ∑ j ∈ range N, ∑ k ∈ range N, a i * b j * c k * form3 n f (x i) (x j) (x k) := by
  have s1 : ∀ (v w : Nat → ℝ), form3 n f (fun r => ∑ i ∈ range N, a i * x i r) v w = ∑ i ∈ range N, a i * form3 n f (x i) v w := by
    intro v w
    unfold form3
    simp only [mul_sum, sum_mul]
    simp only [sum_comm (s := range n) (t := range N)]
    exact sum_congr rfl fun i _ => sum_congr rfl fun p _ => sum_congr rfl fun q _ => sum_congr rfl fun t _ => by ring
  have s2 : ∀ (u w : Nat → ℝ), form3 n f u (fun r => ∑ i ∈ range N, b i * x i r) w = ∑ i ∈ range N, b i * form3 n f u (x i) w := by
    intro v w
    unfold form3
    simp only [mul_sum, sum_mul]
    simp only [sum_comm (s := range n) (t := range N)]
    exact sum_congr rfl fun i _ => sum_congr rfl fun p _ => sum_congr rfl fun q _ => sum_congr rfl fun t _ => by ring
  have s3 : ∀ (u v : Nat → ℝ), form3 n f u v (fun r => ∑ i ∈ range N, c i * x i r) = ∑ i ∈ range N, c i * form3 n f u v (x i) := by
    intro v w
    unfold form3
    simp only [mul_sum]
    simp only [sum_comm (s := range n) (t := range N)]
    exact sum_congr rfl fun i _ => sum_congr rfl fun p _ => sum_congr rfl fun q _ => sum_congr rfl fun t _ => by ring
  rw [s1]
  refine sum_congr rfl fun i _ => ?_
  rw [s2, mul_sum]
  refine sum_congr rfl fun j _ => ?_
  rw [s3, mul_sum, mul_sum]
  exact sum_congr rfl fun k _ => by ring

theorem form4_sums (f : Nat → Nat → Nat → Nat → ℝ) (x : Nat → Nat → ℝ) (a b c d : Nat → ℝ) :
    form4 n f (fun r => ∑ i ∈ range N, a i * x i r) (fun r => ∑ i ∈ range N, b i * x i r) (fun r => ∑ i ∈ range N, c i * x i r)
        (fun r => ∑ i ∈ range N, d i * x i r) =
      ∑ i ∈ range N, ∑ j ∈ range N, ∑ k ∈ range N, ∑ l ∈ range N, a i * b j * c k * d l * form4 n f (x i) (x j) (x k) (x l) := by
  have s4 : ∀ (u v w : Nat → ℝ), form4 n f u v w (fun r => ∑ i ∈ range N, d i * x i r) = ∑ i ∈ range N, d i * form4 n f u v w (x i) := by
    intro u v w
    unfold form4
    simp only [mul_sum]
    simp only [sum_comm (s := range n) (t := range N)]
    exact sum_congr rfl fun i _ => sum_congr rfl fun p _ => sum_congr rfl fun q _ => sum_congr rfl fun t _ =>
      sum_congr rfl fun r _ => by ring
  have e : ∀ u v w t : Nat → ℝ, form4 n f u v w t = form3 n (fun p q r => ∑ s ∈ range n, f p q r s * t s) u v w := by
    intro u v w t
    unfold form4 form3
    exact sum_congr rfl fun p _ => sum_congr rfl fun q _ => sum_congr rfl fun r _ => by
      rw [sum_mul, sum_mul, sum_mul]
      exact sum_congr rfl fun s _ => by ring
  rw [e, form3_sums]
  refine sum_congr rfl fun i _ => sum_congr rfl fun j _ => sum_congr rfl fun k _ => ?_
  rw [← e, s4, mul_sum]
  exact sum_congr rfl fun l _ => by ring

theorem angular_sums (x : Nat) (e : Nat → Nat → ℝ) (a b : Nat → ℝ) :
    angularForm n x (fun r => ∑ i ∈ range N, a i * e i r) (fun r => ∑ i ∈ range N, b i * e i r) =
      ∑ i ∈ range N, ∑ j ∈ range N, a i * b j * angularForm n x (e i) (e j) := by
  unfold angularForm
  simp only [mul_sum]
  rw [sum_congr rfl fun i _ => sum_comm, sum_comm]
  refine sum_congr rfl fun q _ => ?_
  rw [← sum_sub_distrib]
  refine Eq.trans ?_ sum_comm
  refine sum_congr rfl fun j _ => ?_
  rw [sum_mul, sum_mul, ← sum_sub_distrib]
  exact sum_congr rfl fun i _ => by ring

theorem applyAxes_sum (axes : Nat → Nat → ℝ) (a : Nat → ℝ) (d : Nat → Nat → ℝ) (r : Nat) :
    applyAxes axes (fun r => ∑ i ∈ range N, a i * d i r) r = ∑ i ∈ range N, a i * applyAxes axes (d i) r := by
  unfold applyAxes
  simp only [mul_sum]
  rw [sum_comm]
  exact sum_congr rfl fun i _ => sum_congr rfl fun x _ => by ring

theorem sum_parts {one : List Nat} {two : List (Nat × Nat)}
    (h : (one ++ two.map (·.1) ++ two.map (·.2)).Perm (List.range N)) (g : Nat → ℝ) :
    ∑ i ∈ range N, g i = (one.map g).sum + (two.map fun t => g t.1 + g t.2).sum := by
  have e : ((one ++ two.map (·.1) ++ two.map (·.2)).map g).sum = ((List.range N).map g).sum := (h.map g).sum_eq
  have e' : ((List.range N).map g).sum = ∑ i ∈ range N, g i := by
    rw [← List.sum_toFinset g List.nodup_range]
    congr 1
    ext i
    simp
  rw [← e', ← e, List.map_append, List.map_append, List.sum_append, List.sum_append, List.map_map, List.map_map, add_assoc,
    ← List.sum_map_add]
  rfl

end

section
variable {natom N : Nat} {one : List Nat} {two : List (Nat × Nat)} {s p w mass B : Nat → ℝ} {ax : Nat}
  {pos axes f2 : Nat → Nat → ℝ} {f3 : Nat → Nat → Nat → ℝ} {f4 : Nat → Nat → Nat → Nat → ℝ} {lx lxm : List (List ℝ)}
  {π ρ : Nat → Nat} {e : ℝ}

/-- Displacements along the normal coordinates `u`. -/
noncomputable def along (N : Nat) (w : Nat → ℝ) (d : Nat → Nat → ℝ) (u : Nat → ℝ) : Nat → ℝ :=
  fun r => ∑ i ∈ range N, u i / Real.sqrt (w i) * d i r

theorem cubic_along (hw : ∀ i < N, 0 < w i) (u v t : Nat → ℝ) : form3 N (cubicField (3 * natom) axes f3 w lx) u v t =
    cubicUnit * form3 (3 * natom) f3 (applyAxes axes (along N w (columnEntry lx) u))
      (applyAxes axes (along N w (columnEntry lx) v)) (applyAxes axes (along N w (columnEntry lx) t)) := by
  have a : ∀ u, applyAxes axes (along N w (columnEntry lx) u) =
      fun r => ∑ i ∈ range N, u i / Real.sqrt (w i) * applyAxes axes (columnEntry lx i) r := fun u => by
    funext r; exact applyAxes_sum ..
  rw [a, a, a, form3_sums (n := 3 * natom) (N := N) f3 (fun i => applyAxes axes (columnEntry lx i)), mul_sum]
  refine sum_congr rfl fun i hi => ?_
  rw [mul_sum]
  refine sum_congr rfl fun j hj => ?_
  rw [mul_sum]
  refine sum_congr rfl fun k hk => ?_
  have hi := hw i (mem_range.1 hi)
  have hj := hw j (mem_range.1 hj)
  have hk := hw k (mem_range.1 hk)
  have := (Real.sqrt_pos.2 hi).ne'
  have := (Real.sqrt_pos.2 hj).ne'
  have := (Real.sqrt_pos.2 hk).ne'
  rw [cubicField, Real.sqrt_mul (mul_pos hi hj).le, Real.sqrt_mul hi.le]
  field_simp

theorem quartic_along (hw : ∀ i < N, 0 < w i) (u v t r : Nat → ℝ) : form4 N (quarticField (3 * natom) axes f4 w lx) u v t r =
    quarticUnit * form4 (3 * natom) f4 (applyAxes axes (along N w (columnEntry lx) u))
      (applyAxes axes (along N w (columnEntry lx) v)) (applyAxes axes (along N w (columnEntry lx) t))
      (applyAxes axes (along N w (columnEntry lx) r)) := by
  have a : ∀ u, applyAxes axes (along N w (columnEntry lx) u) =
      fun r => ∑ i ∈ range N, u i / Real.sqrt (w i) * applyAxes axes (columnEntry lx i) r := fun u => by
    funext r; exact applyAxes_sum ..
  rw [a, a, a, a, form4_sums (n := 3 * natom) (N := N) f4 (fun i => applyAxes axes (columnEntry lx i)), mul_sum]
  refine sum_congr rfl fun i hi => ?_
  rw [mul_sum]
  refine sum_congr rfl fun j hj => ?_
  rw [mul_sum]
  refine sum_congr rfl fun k hk => ?_
  rw [mul_sum]
  refine sum_congr rfl fun l hl => ?_
  have hi := hw i (mem_range.1 hi)
  have hj := hw j (mem_range.1 hj)
  have hk := hw k (mem_range.1 hk)
  have hl := hw l (mem_range.1 hl)
  have := (Real.sqrt_pos.2 hi).ne'
  have := (Real.sqrt_pos.2 hj).ne'
  have := (Real.sqrt_pos.2 hk).ne'
  have := (Real.sqrt_pos.2 hl).ne'
  rw [quarticField, Real.sqrt_mul (mul_pos (mul_pos hi hj) hk).le, Real.sqrt_mul (mul_pos hi hj).le, Real.sqrt_mul hi.le]
  field_simp

theorem coriolis_along (u v x : Nat → ℝ) : coriolisForm N (zetaField natom lxm) u v x =
    ∑ a ∈ range 3, x a * angularForm natom a (along N (fun _ => 1) (columnEntry lxm) u) (along N (fun _ => 1) (columnEntry lxm) v) := by
  unfold along coriolisForm
  simp only [angular_sums]
  simp only [mul_sum, Real.sqrt_one, div_one]
  rw [sum_comm (s := range 3)]
  refine sum_congr rfl fun i _ => ?_
  rw [sum_comm (s := range 3)]
  exact sum_congr rfl fun j _ => sum_congr rfl fun a _ => by rw [zetaField]; ring

/-- Turned normal coordinates give turned displacements. -/
theorem along_turn (hm : (one ++ two.map (·.1) ++ two.map (·.2)).Perm (List.range N)) {n : Nat} {d : Nat → Nat → ℝ}
    {M : Nat → Nat → ℝ} (hwt : ∀ t ∈ two, w t.2 = w t.1) (h1 : ∀ k ∈ one, ∀ r < n, brought π M (d k) r = d k r)
    (h2 : ∀ t ∈ two, ∀ r < n, brought π M (d t.1) r = -1 / 2 * d t.1 r + s t.1 * (Real.sqrt 3 / 2) * d t.2 r)
    (h3 : ∀ t ∈ two, ∀ r < n, brought π M (d t.2) r = -(s t.1 * (Real.sqrt 3 / 2)) * d t.1 r + -1 / 2 * d t.2 r)
    {u u' : Nat → ℝ} (ht : ThirdTurn one two s u u') : ∀ r < n, along N w d u' r = brought π M (along N w d u) r := by
  intro r hr
  unfold along
  rw [carried_sum, sum_parts hm, sum_parts hm]
  congr 1
  · congr 1
    exact List.map_congr_left fun k hk => by rw [ht.single k hk, h1 k hk r hr]
  · congr 1
    refine List.map_congr_left fun t h => ?_
    rw [ht.first t h, ht.second t h, h2 t h r hr, h3 t h r hr, hwt t h]
    ring

theorem along_flip {n : Nat} {d : Nat → Nat → ℝ} {M : Nat → Nat → ℝ} (h : ∀ i < N, ∀ r < n, brought ρ M (d i) r = p i * d i r)
    (u : Nat → ℝ) : ∀ r < n, along N w d (fun i => p i * u i) r = brought ρ M (along N w d u) r := by
  intro r hr
  unfold along
  rw [carried_sum]
  exact sum_congr rfl fun i hi => by rw [h i (mem_range.1 hi) r hr]; ring

theorem angular_congr {n a : Nat} {u u' v v' : Nat → ℝ} (hu : ∀ r < 3 * n, u r = u' r) (hv : ∀ r < 3 * n, v r = v' r) :
    angularForm n a u v = angularForm n a u' v' := by
  unfold angularForm
  refine sum_congr rfl fun i hi => ?_
  have := mem_range.1 hi
  have := Nat.mod_lt (a + 1) (show 0 < 3 by norm_num)
  have := Nat.mod_lt (a + 2) (show 0 < 3 by norm_num)
  rw [hu _ (by omega), hu _ (by omega), hv _ (by omega), hv _ (by omega)]

/-- If the displacements of the modes turn and flip as they should, so do their constants. -/
theorem threefold_of (hπ : SymmetryOf natom pos mass axes f2 f3 f4 π thirdTurn)
    (hρ : SymmetryOf natom pos mass axes f2 f3 f4 ρ (flipAxes e)) {π' ρ' : Nat → Nat} (hπ' : ∀ a < natom, π' a < natom)
    (hρ' : ∀ a < natom, ρ' a < natom) (i1 : ∀ a < natom, π (π' a) = a) (i2 : ∀ a < natom, π' (π a) = a)
    (i3 : ∀ a < natom, ρ (ρ' a) = a) (i4 : ∀ a < natom, ρ' (ρ a) = a)
    (he : e = 1 ∧ ax = 1 ∨ e = -1 ∧ ax = 0) (hw : ∀ i < N, 0 < w i)
    (hlx : ∀ i < N, ∀ r < 3 * natom, columnEntry lxm i r = Real.sqrt (mass (r / 3)) * columnEntry lx i r)
    (hm : (one ++ two.map (·.1) ++ two.map (·.2)).Perm (List.range N)) (hs : ∀ t ∈ two, s t.1 = 1 ∨ s t.1 = -1)
    (hp : ∀ i < N, p i = 1 ∨ p i = -1) (hpt : ∀ t ∈ two, p t.1 = 1 ∧ p t.2 = -1) (hwt : ∀ t ∈ two, w t.2 = w t.1)
    (hB : B 0 = B 1) (h1 : ∀ k ∈ one, ∀ r < 3 * natom, brought π thirdTurn (columnEntry lx k) r = columnEntry lx k r)
    (h2 : ∀ t ∈ two, ∀ r < 3 * natom, brought π thirdTurn (columnEntry lx t.1) r =
      -1 / 2 * columnEntry lx t.1 r + s t.1 * (Real.sqrt 3 / 2) * columnEntry lx t.2 r)
    (h3 : ∀ t ∈ two, ∀ r < 3 * natom, brought π thirdTurn (columnEntry lx t.2) r =
      -(s t.1 * (Real.sqrt 3 / 2)) * columnEntry lx t.1 r + -1 / 2 * columnEntry lx t.2 r)
    (hf : ∀ i < N, ∀ r < 3 * natom, brought ρ (flipAxes e) (columnEntry lx i) r = p i * columnEntry lx i r) :
    Threefold N one two s p ax w (cubicField (3 * natom) axes f3 w lx) (quarticField (3 * natom) axes f4 w lx)
      (zetaField natom lxm) B := by
  have mem : ∀ i, i ∈ one ++ two.map (·.1) ++ two.map (·.2) → i < N := fun i hi => List.mem_range.1 (hm.mem_iff.1 hi)
  have l1 : ∀ k ∈ one, k < N := fun k hk => mem k (by simp only [List.mem_append]; exact .inl (.inl hk))
  have l2 : ∀ t ∈ two, t.1 < N := fun t ht => mem _ (by simp only [List.mem_append, List.mem_map]; exact .inl (.inr ⟨t, ht, rfl⟩))
  have l3 : ∀ t ∈ two, t.2 < N := fun t ht => mem _ (by simp only [List.mem_append, List.mem_map]; exact .inr ⟨t, ht, rfl⟩)
  -- the same for the weighted displacements
  have wt : ∀ i < N, ∀ r < 3 * natom, brought π thirdTurn (columnEntry lxm i) r =
      Real.sqrt (mass (r / 3)) * brought π thirdTurn (columnEntry lx i) r := fun i hi r hr =>
    carried_weighted (n := natom) (f := fun a => Real.sqrt (mass a)) hπ.atom _ (fun a ha => by rw [hπ.mass a ha]) (hlx i hi) r hr
  have wf : ∀ i < N, ∀ r < 3 * natom, brought ρ (flipAxes e) (columnEntry lxm i) r =
      Real.sqrt (mass (r / 3)) * brought ρ (flipAxes e) (columnEntry lx i) r := fun i hi r hr =>
    carried_weighted (n := natom) (f := fun a => Real.sqrt (mass a)) hρ.atom _ (fun a ha => by rw [hρ.mass a ha]) (hlx i hi) r hr
  have h1' : ∀ k ∈ one, ∀ r < 3 * natom, brought π thirdTurn (columnEntry lxm k) r = columnEntry lxm k r := fun k hk r hr => by
    rw [wt k (l1 k hk) r hr, h1 k hk r hr, hlx k (l1 k hk) r hr]
  have h2' : ∀ t ∈ two, ∀ r < 3 * natom, brought π thirdTurn (columnEntry lxm t.1) r =
      -1 / 2 * columnEntry lxm t.1 r + s t.1 * (Real.sqrt 3 / 2) * columnEntry lxm t.2 r := fun t ht r hr => by
    rw [wt _ (l2 t ht) r hr, h2 t ht r hr, hlx _ (l2 t ht) r hr, hlx _ (l3 t ht) r hr]; ring
  have h3' : ∀ t ∈ two, ∀ r < 3 * natom, brought π thirdTurn (columnEntry lxm t.2) r =
      -(s t.1 * (Real.sqrt 3 / 2)) * columnEntry lxm t.1 r + -1 / 2 * columnEntry lxm t.2 r := fun t ht r hr => by
    rw [wt _ (l3 t ht) r hr, h3 t ht r hr, hlx _ (l2 t ht) r hr, hlx _ (l3 t ht) r hr]; ring
  have hf' : ∀ i < N, ∀ r < 3 * natom, brought ρ (flipAxes e) (columnEntry lxm i) r = p i * columnEntry lxm i r := fun i hi r hr => by
    rw [wf i hi r hr, hf i hi r hr, hlx i hi r hr]; ring
  have T : ∀ {u u'}, ThirdTurn one two s u u' → ∀ r < 3 * natom, applyAxes axes (along N w (columnEntry lx) u') r =
      applyAxes axes (brought π thirdTurn (along N w (columnEntry lx) u)) r := fun h =>
    applyAxes_congr (along_turn hm hwt h1 h2 h3 h)
  have F : ∀ u, ∀ r < 3 * natom, applyAxes axes (along N w (columnEntry lx) (fun i => p i * u i)) r =
      applyAxes axes (brought ρ (flipAxes e) (along N w (columnEntry lx) u)) r := fun u => applyAxes_congr (along_flip hf u)
  have T' : ∀ {u u'}, ThirdTurn one two s u u' → ∀ r < 3 * natom, along N (fun _ => 1) (columnEntry lxm) u' r =
      brought π thirdTurn (along N (fun _ => 1) (columnEntry lxm) u) r := fun h =>
    along_turn hm (fun _ _ => rfl) h1' h2' h3' h
  have F' : ∀ u, ∀ r < 3 * natom, along N (fun _ => 1) (columnEntry lxm) (fun i => p i * u i) r =
      brought ρ (flipAxes e) (along N (fun _ => 1) (columnEntry lxm) u) r := along_flip hf'
  refine ⟨hm, hs, hp, hpt, by omega, hwt, hB, ?_, ?_, ?_, ?_, ?_, ?_⟩
  · intro u v t u' v' t' hu hv ht
    rw [cubic_along hw, cubic_along hw, form3_congr (T hu) (T hv) (T ht), hπ.third]
  · intro u v t
    rw [cubic_along hw, cubic_along hw, form3_congr (F u) (F v) (F t), hρ.third]
  · intro u v t r u' v' t' r' hu hv ht hr
    rw [quartic_along hw, quartic_along hw, form4_congr (T hu) (T hv) (T ht) (T hr), hπ.fourth]
  · intro u v t r
    rw [quartic_along hw, quartic_along hw, form4_congr (F u) (F v) (F t) (F r), hρ.fourth]
  · intro u v x u' v' x' hu hv hx
    rw [coriolis_along, coriolis_along, ← angular_turn hπ.atom hπ' i1 i2 _ _ x x' hx]
    exact sum_congr rfl fun a _ => by rw [angular_congr (T' hu) (T' hv)]
  · intro u v x
    rw [coriolis_along, coriolis_along, ← angular_flip hρ.atom hρ' i3 i4 _ _ x he]
    exact sum_congr rfl fun a _ => by rw [angular_congr (F' u) (F' v)]

end

end Verif
