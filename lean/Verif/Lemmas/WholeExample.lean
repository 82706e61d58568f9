import Verif.Lemmas.Whole
import Verif.Lemmas.Mix

/-!
# A family of runs with known results

Three atoms of mass one with all harmonic frequencies equal to `W` and all cubic constants equal to `C`.
-/

namespace Verif

open Finset

theorem eigen2_exists (p v q : ℝ) : ∃ r, IsEigen2 p v q r := by
  obtain ⟨r, hl, ho, he⟩ := eigen_exists 2 (fun i j => if i = j then (if i = 0 then p else q) else v) (by
    intro a b _ _
    by_cases h : a = b
    · subst h; simp
    · dsimp only
      rw [if_neg h, if_neg (Ne.symm h)])
  refine ⟨r, hl, fun i l hi => ?_, ?_⟩
  · have h2 : i < 2 := by
      obtain ⟨h, -⟩ := List.getElem?_eq_some_iff.1 hi
      omega
    have e0 := he i l hi 0 (by omega)
    have e1 := he i l hi 1 (by omega)
    have o := ho i i h2 h2
    simp [sum_range_succ] at e0 e1 o
    exact ⟨e0, e1, by linarith [o, sq (r.2 0 i), sq (r.2 1 i)]⟩
  · have o := ho 0 1 (by omega) (by omega)
    simpa [sum_range_succ] using o

/-- `exactOracles` with an exact eigensolver for the two-level problems as well. -/
noncomputable def exactOracles2 : Oracles ℝ Nat :=
  { exactOracles with eigen2 := fun p v q => Classical.choose (eigen2_exists p v q) }

theorem exactOracles2_eigen2 (p v q : ℝ) : IsEigen2 p v q (exactOracles2.eigen2 p v q) :=
  Classical.choose_spec (eigen2_exists p v q)

theorem cubicUnit_pos : 0 < cubicUnit := by unfold cubicUnit; positivity

theorem fact2_pos : 0 < (FACT2 : ℝ) := by
  unfold FACT2; simp only [lit_real]; positivity

theorem applyAxes_id (u : Nat → ℝ) : applyAxes idAxes u = u := by
  funext x
  unfold applyAxes
  have h : x % 3 < 3 := Nat.mod_lt _ (by omega)
  rw [sum_eq_single (x % 3)]
  · simp only [idAxes, if_true, one_mul]
    congr 1
    omega
  · intro b _ hb
    simp [idAxes, hb.symm]
  · intro hc
    exact absurd (mem_range.2 h) hc

theorem equal_run (W C : ℝ) (hW : 0 < W) : ∃ (fc2 : Mat ℝ) (f3x : T3 ℝ) (f4x : T4 ℝ) (out : Output ℝ Nat),
    Symm3 exampleTop.n3n f3x ∧ Symm4 exampleTop.n3n f4x ∧ run exampleTop exactOracles2 (.quartic fc2 f3x f4x) = some out ∧
    (∀ i < exampleTop.nvib, entryOf out.harms i = W) ∧
    ∀ i j k, i < exampleTop.nvib → j < exampleTop.nvib → k < exampleTop.nvib →
      cubicField exampleTop.n3n exampleTop.axes f3x (entryOf out.harms) out.lx i j k = C := by
  let K := waveUnit ^ 2 * (FACT2 : ℝ)
  have hK : 0 < K := by
    have := waveUnit_pos
    have := fact2_pos
    positivity
  let fc2 : Mat ℝ := fun i j => if i = j then W ^ 2 / K else 0
  have done : ∀ f3x f4x, ∃ out, run exampleTop exactOracles2 (.quartic fc2 f3x f4x) = some out := fun f3x f4x =>
    Option.isSome_iff_exists.1 (c74_completes exampleTop exactOracles2 fc2 f3x f4x rfl (by decide) (by decide) rfl
      (by decide) (fun m => (exactOracles_eigen m).2) (fun p v q => (exactOracles2_eigen2 p v q).1) le_rfl)
  obtain ⟨q0, hq0⟩ := done (fun _ _ _ => 0) (fun _ _ _ _ => 0)
  obtain ⟨hm, hh⟩ := Option.isSome_iff_exists.1 (c57_harmonic_completes _ _ _ _ _ q0 (by decide)
    (fun m => (exactOracles_eigen m).2) hq0)
  have horth : Orthogonal3 exampleTop.axes := by
    refine ⟨?_, ?_⟩
    · intro p q hp hq
      interval_cases p <;> interval_cases q <;> simp [exampleTop, idAxes]
    · intro p q hp hq
      interval_cases p <;> interval_cases q <;> simp [exampleTop, idAxes]
  have hsym : Symm2 exampleTop.n3n fc2 := by
    intro a b _ _
    simp only [fc2, eq_comm]
  obtain ⟨hlen, hnm⟩ := c75_normal_modes exampleTop exactOracles2 fc2 hm rfl rfl (by simp [exampleTop]) horth hsym
    (fun m hs => (exactOracles_eigen m).1 hs) hh
  have hax : exampleTop.axes = idAxes := rfl
  have hn9 : exampleTop.n3n = 9 := rfl
  have hwt : exampleTop.weights = fun _ => 1 := rfl
  rw [hn9] at hlen
  rw [hn9, hax, hwt] at hnm
  simp only [applyAxes_id] at hnm
  let s : Nat → ℝ := fun x => ∑ i ∈ range 3, columnEntry hm.lx i x
  let c : ℝ := C * Real.sqrt (W * W * W) / cubicUnit
  let f3x : T3 ℝ := fun x y z => c * s x * s y * s z
  obtain ⟨out, hout⟩ := done f3x (fun _ _ _ _ => 1)
  obtain ⟨-, -, hlx, -, -, hha⟩ := c57_same _ _ _ _ _ hm out hh hout
  have hha := hha rfl
  have hlen3 := (c58_aligned _ _ _ _ _ out rfl hout).1
  have col : ∀ i < 9, ∃ d, hm.lx[i]? = some d ∧ columnEntry hm.lx i = vecOf d := by
    intro i hi
    have hi : i < hm.lx.length := by omega
    refine ⟨hm.lx[i], List.getElem?_eq_getElem hi, ?_⟩
    funext r
    simp [columnEntry, vecOf, List.getD_eq_getElem?_getD, List.getElem?_eq_getElem hi, lit_real]
  have harm : ∀ i < 3, ∃ w, hm.harms[i]? = some w := by
    intro i hi
    rw [← hha]
    exact ⟨_, List.getElem?_eq_getElem (by rw [hlen3]; exact hi)⟩
  have orth : ∀ i < 3, ∀ j < 3, ∑ x ∈ range 9, columnEntry hm.lx i x * columnEntry hm.lx j x = if i = j then 1 else 0 := by
    intro i hi j hj
    obtain ⟨w, hw⟩ := harm i hi
    obtain ⟨d, hd, ed⟩ := col i (by omega)
    obtain ⟨d', hd', ed'⟩ := col j (by omega)
    have := (hnm i w d hw hd).2.2 j d' hd'
    rw [massForm] at this
    simp only [one_mul] at this
    rw [ed, ed', this]
  have hw : ∀ i < 3, entryOf out.harms i = W := by
    intro i hi
    obtain ⟨w, hw⟩ := harm i hi
    obtain ⟨d, hd, ed⟩ := col i (by omega)
    have e := (hnm i w d hw hd).2.1 (vecOf d)
    have o := orth i hi i hi
    rw [ed, if_pos rfl] at o
    rw [massForm, form2] at e
    simp only [fc2, one_mul, o, mul_one, ite_mul, zero_mul, sum_ite_eq, mem_range] at e
    rw [sum_congr rfl (g := fun x => W ^ 2 / K * (vecOf d x * vecOf d x)) (fun x hx => by
      rw [if_pos (mem_range.1 hx)]; ring), ← mul_sum, o, mul_one] at e
    have e' : W ^ 2 = w * |w| := by
      rw [← e]
      show W ^ 2 = K * (W ^ 2 / K)
      field_simp
    have hpos : 0 < w := by
      by_contra hc
      have : w * |w| ≤ 0 := mul_nonpos_of_nonpos_of_nonneg (not_lt.1 hc) (abs_nonneg _)
      nlinarith [pow_pos hW 2]
    rw [abs_of_pos hpos] at e'
    have : W = w := by nlinarith
    rw [hha, entryOf, List.getD_eq_getElem?_getD, hw, Option.getD_some, this]
  have ssum : ∀ i < 3, ∑ x ∈ range 9, s x * columnEntry hm.lx i x = 1 := by
    intro i hi
    simp only [s, sum_mul]
    rw [sum_comm, sum_congr rfl fun j hj => orth j (mem_range.1 hj) i hi]
    simp [hi]
  refine ⟨fc2, f3x, fun _ _ _ _ => 1, out, ?_, ?_, hout, hw, ?_⟩
  · intro a b c _ _ _
    simp only [f3x]
    constructor <;> ring
  · intro a b c d _ _ _ _
    simp
  · intro i j k hi hj hk
    rw [cubicField, hw i hi, hw j hj, hw k hk, hlx, hax, applyAxes_id, applyAxes_id, applyAxes_id]
    have f : form3 9 f3x (columnEntry hm.lx i) (columnEntry hm.lx j) (columnEntry hm.lx k) = c := by
      have e1 : ∀ x y, ∑ z ∈ range 9, f3x x y z * columnEntry hm.lx i x * columnEntry hm.lx j y * columnEntry hm.lx k z =
          c * (s x * columnEntry hm.lx i x) * (s y * columnEntry hm.lx j y) := by
        intro x y
        rw [← mul_one (c * _ * _), ← ssum k hk, mul_sum]
        exact sum_congr rfl fun z _ => by simp only [f3x]; ring
      have e2 : ∀ x, ∑ y ∈ range 9, c * (s x * columnEntry hm.lx i x) * (s y * columnEntry hm.lx j y) =
          c * (s x * columnEntry hm.lx i x) := by
        intro x
        rw [← mul_sum, ssum j hj, mul_one]
      simp only [form3, e1, e2]
      rw [← mul_sum, ssum i hi, mul_one]
    show cubicUnit / _ * form3 9 f3x _ _ _ = C
    rw [f]
    have h1 := cubicUnit_pos
    have h2 : 0 < Real.sqrt (W * W * W) := Real.sqrt_pos.2 (by positivity)
    simp only [c]
    field_simp

/-- Modes of a diagonal Hessian with far apart entries have far apart frequencies. -/
theorem spread_run (f3x : T3 ℝ) (f4x : T4 ℝ) : ∃ (fc2 : Mat ℝ) (out : Output ℝ Nat),
    run exampleTop exactOracles2 (.quartic fc2 f3x f4x) = some out ∧
    ∀ i < exampleTop.nvib, ∀ j < exampleTop.nvib, i ≠ j → 1000 ≤ |entryOf out.harms i - entryOf out.harms j| := by
  let K := waveUnit ^ 2 * (FACT2 : ℝ)
  have hK : 0 < K := by
    have := waveUnit_pos
    have := fact2_pos
    positivity
  let fc2 : Mat ℝ := fun i j => if i = j then (1000 * ((i : ℝ) + 1)) ^ 2 / K else 0
  obtain ⟨out, hout⟩ : ∃ out, run exampleTop exactOracles2 (.quartic fc2 f3x f4x) = some out :=
    Option.isSome_iff_exists.1 (c74_completes exampleTop exactOracles2 fc2 f3x f4x rfl (by decide) (by decide) rfl
      (by decide) (fun m => (exactOracles_eigen m).2) (fun p v q => (exactOracles2_eigen2 p v q).1) le_rfl)
  obtain ⟨hm, hh⟩ := Option.isSome_iff_exists.1 (c57_harmonic_completes _ _ _ _ _ out (by decide)
    (fun m => (exactOracles_eigen m).2) hout)
  have horth : Orthogonal3 exampleTop.axes := by
    refine ⟨?_, ?_⟩
    · intro p q hp hq
      interval_cases p <;> interval_cases q <;> simp [exampleTop, idAxes]
    · intro p q hp hq
      interval_cases p <;> interval_cases q <;> simp [exampleTop, idAxes]
  have hsym : Symm2 exampleTop.n3n fc2 := by
    intro a b _ _
    simp only [fc2]
    by_cases h : a = b
    · subst h; rfl
    · rw [if_neg h, if_neg (Ne.symm h)]
  obtain ⟨hlen, hnm⟩ := c75_normal_modes exampleTop exactOracles2 fc2 hm rfl rfl (by simp [exampleTop]) horth hsym
    (fun m hs => (exactOracles_eigen m).1 hs) hh
  have hax : exampleTop.axes = idAxes := rfl
  have hn9 : exampleTop.n3n = 9 := rfl
  have hwt : exampleTop.weights = fun _ => 1 := rfl
  rw [hn9] at hlen
  rw [hn9, hax, hwt] at hnm
  simp only [applyAxes_id] at hnm
  have hha := (c57_same _ _ _ _ _ hm out hh hout).2.2.2.2.2 rfl
  have hlen3 := (c58_aligned _ _ _ _ _ out rfl hout).1
  have key : ∀ i < 3, ∃ w d, hm.harms[i]? = some w ∧ hm.lx[i]? = some d ∧ entryOf out.harms i = w ∧
      (∀ x < 9, vecOf d x ≠ 0 → w = 1000 * ((x : ℝ) + 1)) ∧ ∃ x < 9, vecOf d x ≠ 0 := by
    intro i hi
    have h1 : i < hm.lx.length := by omega
    have h2 : i < out.harms.length := by rw [hlen3]; exact hi
    have hw : out.harms[i]? = some out.harms[i] := List.getElem?_eq_getElem h2
    have hd : hm.lx[i]? = some hm.lx[i] := List.getElem?_eq_getElem h1
    generalize hm.lx[i] = d at hd
    generalize out.harms[i] = w at hw
    rw [hha] at hw
    obtain ⟨-, e, o⟩ := hnm i w d hw hd
    refine ⟨w, d, hw, hd, by rw [hha, entryOf, List.getD_eq_getElem?_getD, hw, Option.getD_some], ?_, ?_⟩
    · intro x hx hne
      have ex := e fun y => if y = x then 1 else 0
      rw [massForm, form2] at ex
      have l : ∑ a ∈ range 9, ∑ y ∈ range 9, fc2 a y * (if a = x then 1 else 0) * vecOf d y =
          (1000 * ((x : ℝ) + 1)) ^ 2 / K * vecOf d x := by
        rw [sum_eq_single x, sum_eq_single x]
        · simp [fc2]
        · intro b _ hb
          simp [fc2, Ne.symm hb]
        · intro hc
          exact absurd (mem_range.2 hx) hc
        · intro b _ hb
          simp [hb]
        · intro hc
          exact absurd (mem_range.2 hx) hc
      have r : ∑ a ∈ range 9, 1 * (if a = x then (1 : ℝ) else 0) * vecOf d a = vecOf d x := by
        rw [sum_eq_single x]
        · simp
        · intro b _ hb
          simp [hb]
        · intro hc
          exact absurd (mem_range.2 hx) hc
      rw [l, r] at ex
      have e1 : (1000 * ((x : ℝ) + 1)) ^ 2 * vecOf d x = w * |w| * vecOf d x := by
        rw [← ex]
        show _ = K * _
        field_simp
      have e2 := mul_right_cancel₀ hne e1
      have hp : (0 : ℝ) < 1000 * ((x : ℝ) + 1) := by positivity
      have hpos : 0 < w := by
        by_contra hc
        have : w * |w| ≤ 0 := mul_nonpos_of_nonpos_of_nonneg (not_lt.1 hc) (abs_nonneg _)
        nlinarith [pow_pos hp 2]
      rw [abs_of_pos hpos] at e2
      nlinarith
    · by_contra hc
      push Not at hc
      have := o i d hd
      rw [massForm, if_pos rfl, sum_eq_zero] at this
      · exact zero_ne_one this
      · intro x hx
        rw [hc x (mem_range.1 hx)]; ring
  refine ⟨fc2, out, hout, fun i hi j hj hij => ?_⟩
  obtain ⟨w, d, hw, hd, e, hs, x, hx, hdx⟩ := key i hi
  obtain ⟨w', d', -, hd', e', hs', x', hx', hdx'⟩ := key j hj
  rw [e, e', hs x hx hdx, hs' x' hx' hdx']
  have hne : x ≠ x' := by
    rintro rfl
    have o := (hnm i w d hw hd).2.2 j d' hd'
    rw [massForm, if_neg hij, sum_eq_single x] at o
    · simp only [one_mul, mul_eq_zero] at o
      exact o.elim hdx hdx'
    · intro y hy hyx
      by_cases hz : vecOf d y = 0
      · rw [hz]; ring
      · have h1 := hs y (mem_range.1 hy) hz
        rw [hs x hx hdx] at h1
        have : (x : ℝ) = y := by linarith
        exact absurd (Nat.cast_injective this).symm hyx
    · intro hc
      exact absurd (mem_range.2 hx) hc
  have e1 : 1000 * ((x : ℝ) + 1) - 1000 * ((x' : ℝ) + 1) = 1000 * (((x : ℤ) - x' : ℤ) : ℝ) := by push_cast; ring
  rw [e1, abs_mul, abs_of_pos (by norm_num : (0 : ℝ) < 1000), ← Int.cast_abs]
  have : (1 : ℤ) ≤ |(x : ℤ) - x'| := Int.one_le_abs (by omega)
  have : (1 : ℝ) ≤ ((|(x : ℤ) - x'| : ℤ) : ℝ) := by exact_mod_cast this
  linarith

end Verif
