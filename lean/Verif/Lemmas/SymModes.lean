import Verif.Lemmas.SymFlip
import Verif.Props.Signs
import Verif.Spec.Turn

/-!
# The modes of symmetric tops
-/

namespace Verif

open Finset

variable {ι : Type}

theorem runModes_sym {s : SpectroIn ℝ} {o : Oracles ℝ ι} {fc2 : Mat ℝ} {m : ModesOut ℝ ι}
    (hs : s.rotor.isSymTop = true) (hm : runModes s o fc2 = some m) :
    m.freq = (rawModes s o fc2).1 ∧
    bdegnl ⟨s.linear, s.nvib, s.n3n, s.natom, s.iatom, s.axisOrder, s.buddy⟩ (vecOf (rawModes s o fc2).1) s.weights
      (rawModes s o fc2).2 (makeLx s.n3n (fun i => Arith.lit 1.0 / Arith.sqrt (s.weights i)) (rawModes s o fc2).2) =
      some (m.lxm, m.lx) := by
  unfold runModes runAlign at hm
  simp only [hs, if_true, Option.bind_eq_bind, Option.bind_eq_some_iff] at hm
  obtain ⟨p, hp, irr, -, hm⟩ := hm
  obtain rfl := Option.some.inj hm
  exact ⟨rfl, hp⟩

/-- The secular matrix of a run. -/
noncomputable def secular (s : SpectroIn ℝ) (fc2 : Mat ℝ) : Mat ℝ :=
  formSec s.n3n (fun i j => FACT2 * rot2nd s.natom s.axes fc2 i j) fun i => Arith.lit 1.0 / Arith.sqrt (s.weights i)

theorem raw_exact {s : SpectroIn ℝ} {o : Oracles ℝ ι} (fc2 : Mat ℝ)
    (he : ∀ m, Symm2 s.n3n m → IsEigen s.n3n m (o.eigen m)) :
    (rawModes s o fc2).1.length = s.n3n ∧ OrthoCols s.n3n s.n3n (rawModes s o fc2).2 ∧
    ∃ ev : Nat → ℝ, (∀ j < s.n3n, vecOf (rawModes s o fc2).1 j = toWavenumber (ev j)) ∧
      ∀ i j, i < s.n3n → j < s.n3n →
        ∑ k ∈ range s.n3n, secular s fc2 i k * (rawModes s o fc2).2 k j = ev j * (rawModes s o fc2).2 i j := by
  obtain ⟨g1, g2, g3⟩ := he (secular s fc2) (fun a b _ _ => c10_symmetric _ _ _ a b)
  have hr1 : (rawModes s o fc2).1 = toWavenumbers (symmEigenDecomp (o.eigen (secular s fc2)).1 (o.eigen (secular s fc2)).2 true).1 := rfl
  have hr2 : (rawModes s o fc2).2 = (symmEigenDecomp (o.eigen (secular s fc2)).1 (o.eigen (secular s fc2)).2 true).2 := rfl
  rw [hr1, hr2]
  have hl := (c11_pairs_rearranged (o.eigen (secular s fc2)).1 (o.eigen (secular s fc2)).2 true).1
  have ho := c11_orthonormal (o.eigen (secular s fc2)).1 (o.eigen (secular s fc2)).2 true (by rw [g1]; exact g2)
  have hre := c11_relation (o.eigen (secular s fc2)).1 (o.eigen (secular s fc2)).2 true
      (fun l c => ∀ a < s.n3n, ∑ b ∈ range s.n3n, secular s fc2 a b * c b = l * c a) (fun i v hv => g3 i v hv)
  rw [g1] at ho hl
  generalize symmEigenDecomp (o.eigen (secular s fc2)).1 (o.eigen (secular s fc2)).2 true = D at hl ho hre ⊢
  have hg : ∀ j < s.n3n, D.1[j]? = some (D.1.getD j 0) := fun j hj => by
    rw [List.getD_eq_getElem?_getD, List.getElem?_eq_getElem (by omega), Option.getD_some]
  refine ⟨by rw [toWavenumbers, List.length_map, hl], fun a b ha hb => ho a b ha hb, fun j => D.1.getD j 0,
    fun j hj => ?_, fun i j hi hj => hre j _ (hg j hj) i hi⟩
  rw [vecOf, toWavenumbers, List.getD_eq_getElem?_getD, List.getElem?_map, hg j hj]
  rfl

/-- The eigenvectors of the secular matrix, scaled with the masses, move as normal modes do. -/
theorem motion_of_eigen {s : SpectroIn ℝ} {fc2 : Mat ℝ} (hn : s.n3n = 3 * s.natom)
    (hw : ∀ a < s.natom, 0 < s.weights a) (ho : Orthogonal3 s.axes) (h2 : Symm2 s.n3n fc2) {c d : Nat → ℝ} {l : ℝ}
    (hc : ∀ a < s.n3n, ∑ b ∈ range s.n3n, secular s fc2 a b * c b = l * c a)
    (hd : ∀ r < s.n3n, d r = c r / Real.sqrt (s.weights (r / 3))) (u : Nat → ℝ) :
    waveUnit ^ 2 * FACT2 * form2 s.n3n fc2 u (applyAxes s.axes d) =
      toWavenumber l * |toWavenumber l| * massForm s.n3n s.weights u (applyAxes s.axes d) := by
  rw [(c12_sign_odd_square l).2.2.2.2]
  have one : ((1.0 : ℚ) : ℝ) = 1 := by norm_num
  have hrot : Symm2 s.n3n (rot2nd s.natom s.axes fc2) := by
    rw [hn] at h2 ⊢
    exact c07_symmetric _ _ _ h2
  have hMe : ∀ a < s.n3n, ∀ b < s.n3n, secular s fc2 a b =
      1 / Real.sqrt (s.weights (a / 3)) * (FACT2 * rot2nd s.natom s.axes fc2 a b) * (1 / Real.sqrt (s.weights (b / 3))) := by
    intro a ha b hb
    rcases le_total a b with hab | hab
    · rw [secular, c10_entry _ _ _ _ _ hab hb]
      simp only [lit_real, sqrt_real, one]
    · rw [secular, c10_symmetric, c10_entry _ _ _ _ _ hab ha]
      simp only [lit_real, sqrt_real, one]
      rw [hrot b a hb ha]
      ring
  have key : ∀ x < s.n3n, FACT2 * ∑ y ∈ range s.n3n, rot2nd s.natom s.axes fc2 x y * d y =
      l * (s.weights (x / 3) * d x) := by
    intro x hx
    have hp := hw (x / 3) (by omega)
    have hs := Real.sqrt_pos.2 hp
    have hq := Real.mul_self_sqrt hp.le
    have e1 := hc x hx
    have e2 : (1 / Real.sqrt (s.weights (x / 3))) *
        (FACT2 * ∑ y ∈ range s.n3n, rot2nd s.natom s.axes fc2 x y * d y) = l * c x := by
      rw [← e1, mul_sum, mul_sum]
      refine sum_congr rfl fun y hy => ?_
      rw [hMe x hx y (mem_range.1 hy), hd y (mem_range.1 hy)]
      ring
    have e3 : (1 / Real.sqrt (s.weights (x / 3))) * (l * (s.weights (x / 3) * d x)) = l * c x := by
      rw [hd x hx]
      field_simp
      rw [pow_two, hq]
      ring
    exact mul_left_cancel₀ (by positivity) (e2.trans e3.symm)
  have hu := applyAxes_rotV s.axes ho u
  have e4 : form2 s.n3n fc2 u (applyAxes s.axes d) =
      form2 s.n3n (rot2nd s.natom s.axes fc2) (rotV s.axes u) d := by
    rw [hn, c07_form, hu]
  have e5 : massForm s.n3n s.weights u (applyAxes s.axes d) = massForm s.n3n s.weights (rotV s.axes u) d := by
    rw [hn, ← massForm_rotate s.natom s.weights s.axes ho (rotV s.axes u), hu]
  have e6 : FACT2 * form2 s.n3n (rot2nd s.natom s.axes fc2) (rotV s.axes u) d =
      l * massForm s.n3n s.weights (rotV s.axes u) d := by
    unfold form2 massForm
    rw [mul_sum, mul_sum]
    refine sum_congr rfl fun x hx => ?_
    have := key x (mem_range.1 hx)
    have e7 : ∑ y ∈ range s.n3n, rot2nd s.natom s.axes fc2 x y * rotV s.axes u x * d y =
        rotV s.axes u x * ∑ y ∈ range s.n3n, rot2nd s.natom s.axes fc2 x y * d y := by
      rw [mul_sum]
      exact sum_congr rfl fun y _ => by ring
    rw [e7]
    linear_combination rotV s.axes u x * this
  rw [e4, e5]
  linear_combination waveUnit ^ 2 * e6

theorem massForm_of_scaled {s : SpectroIn ℝ} (hn : s.n3n = 3 * s.natom) (hw : ∀ a < s.natom, 0 < s.weights a)
    (ho : Orthogonal3 s.axes) {c c' d d' : Nat → ℝ} (hd : ∀ r < s.n3n, d r = c r / Real.sqrt (s.weights (r / 3)))
    (hd' : ∀ r < s.n3n, d' r = c' r / Real.sqrt (s.weights (r / 3))) :
    massForm s.n3n s.weights (applyAxes s.axes d) (applyAxes s.axes d') = ∑ r ∈ range s.n3n, c r * c' r := by
  rw [hn, massForm_rotate _ _ _ ho, ← hn]
  unfold massForm
  refine sum_congr rfl fun x hx => ?_
  have hx := mem_range.1 hx
  have hp := hw (x / 3) (by omega)
  have hs := Real.sqrt_pos.2 hp
  have hq := Real.mul_self_sqrt hp.le
  rw [hd x hx, hd' x hx]
  field_simp
  rw [pow_two, hq]
  ring

/-- The final modes of a symmetric top whose near-degenerate modes are degenerate: frequencies, eigenvectors,
displacements. -/
theorem sym_modes_exact {s : SpectroIn ℝ} {o : Oracles ℝ ι} {fc2 : Mat ℝ} {m : ModesOut ℝ ι}
    (hs : s.rotor.isSymTop = true) (hn : s.n3n = 3 * s.natom) (hv : s.nvib ≤ s.n3n)
    (he : ∀ m, Symm2 s.n3n m → IsEigen s.n3n m (o.eigen m))
    (hm : runModes s o fc2 = some m)
    (hdeg : ∀ a b, a < s.nvib → b < s.nvib → |vecOf m.freq a - vecOf m.freq b| < alignTol s.linear →
      vecOf m.freq a = vecOf m.freq b) :
    m.freq.length = s.n3n ∧ OrthoCols s.n3n s.n3n m.lxm ∧
    (∀ i j, i < s.n3n → j < s.n3n → m.lx i j = m.lxm i j / Real.sqrt (s.weights (i / 3))) ∧
    ∃ ev : Nat → ℝ, (∀ j < s.n3n, vecOf m.freq j = toWavenumber (ev j)) ∧
      ∀ i j, i < s.n3n → j < s.n3n → ∑ k ∈ range s.n3n, secular s fc2 i k * m.lxm k j = ev j * m.lxm i j := by
  obtain ⟨hf, hb⟩ := runModes_sym hs hm
  obtain ⟨hl, ho, ev, h1, h2⟩ := raw_exact (s := s) fc2 he
  rw [← hf] at hl h1 hb
  have one : ((1.0 : ℚ) : ℝ) = 1 := by norm_num
  refine ⟨hl, c50_orthonormal _ _ _ _ _ _ _ s.n3n hv hb ho, ?_, ev, h1, ?_⟩
  · refine c50_mass_scaled _ _ _ _ _ _ _ s.n3n hb hn ?_
    intro i j hi hj
    rw [makeLx_apply _ _ _ _ _ hi hj]
    simp only [lit_real, sqrt_real, one]
    ring
  · refine c50_eigenvectors _ _ _ _ _ _ _ s.n3n hv hb (secular s fc2) ev ?_ h2
    intro a b ha hb' hab
    have e := hdeg a b ha hb' hab
    rw [h1 a (lt_of_lt_of_le ha hv), h1 b (lt_of_lt_of_le hb' hv)] at e
    exact c12_strictMono.injective e

/-! ### The sign of the second component of a pair -/

theorem alignFold_last (cfg : AlignCfg) (freq w : Vec ℝ) (L : List (Nat × Nat)) (hL : ∀ p ∈ L, p.1 ≠ p.2)
    (hd : L.Pairwise fun p q => |freq p.1 - freq p.2| < alignTol cfg.linear →
      |freq q.1 - freq q.2| < alignTol cfg.linear → q.1 ≠ p.1 ∧ q.1 ≠ p.2 ∧ q.2 ≠ p.1 ∧ q.2 ≠ p.2)
    (st st' : Mat ℝ × Mat ℝ) (h : L.foldlM (alignStep cfg freq w) st = some st') (p : Nat × Nat) (hp : p ∈ L)
    (hc : |freq p.1 - freq p.2| < alignTol cfg.linear) :
    ∃ l l', alignLxm cfg p.1 p.2 l = some l' ∧ (∀ r, st'.1 r p.1 = l' r p.1 ∧ st'.1 r p.2 = l' r p.2) ∧
      ∀ r, l r p.1 = st.1 r p.1 ∧ l r p.2 = st.1 r p.2 := by
  induction L generalizing st with
  | nil => simp at hp
  | cons q L ih =>
    rw [List.pairwise_cons] at hd
    rw [List.foldlM_cons, Option.bind_eq_bind, Option.bind_eq_some_iff] at h
    obtain ⟨st1, h1, h2⟩ := h
    rcases List.mem_cons.1 hp with rfl | hp
    · unfold alignStep close at h1
      rw [abs_real, if_pos (by rw [lt_real]; exact hc)] at h1
      simp only [Option.bind_eq_bind, Option.bind_eq_some_iff] at h1
      obtain ⟨l', hl, h1⟩ := h1
      obtain rfl := Option.some.inj h1
      refine ⟨st.1, l', hl, ?_, fun r => ⟨rfl, rfl⟩⟩
      refine foldlM_option_inv (fun st : Mat ℝ × Mat ℝ => ∀ r, st.1 r p.1 = l' r p.1 ∧ st.1 r p.2 = l' r p.2) _ _ _ st'
        (fun r => ⟨rfl, rfl⟩) ?_ h2
      intro t q t' hq ht hs r
      by_cases hqc : |freq q.1 - freq q.2| < alignTol cfg.linear
      · obtain ⟨d1, d2, d3, d4⟩ := hd.1 q hq hc hqc
        have hqn := hL q (by simp [hq])
        rw [alignStep_other hqn hs _ (Ne.symm d1) (Ne.symm d3) r, alignStep_other hqn hs _ (Ne.symm d2) (Ne.symm d4) r]
        exact ht r
      · have : t' = t := by
          unfold alignStep close at hs
          rw [abs_real, if_neg (by rw [lt_real]; exact hqc)] at hs
          exact (Option.some.inj hs).symm
        rw [this]
        exact ht r
    · obtain ⟨l, l', g1, g2, g3⟩ := ih (fun q hq => hL q (by simp [hq])) hd.2 st1 h2 hp
      refine ⟨l, l', g1, g2, fun r => ?_⟩
      rw [(g3 r).1, (g3 r).2]
      by_cases hqc : |freq q.1 - freq q.2| < alignTol cfg.linear
      · obtain ⟨d1, d2, d3, d4⟩ := hd.1 p hp hqc hc
        have hqn := hL q (by simp)
        exact ⟨alignStep_other hqn h1 _ d1 d2 r, alignStep_other hqn h1 _ d3 d4 r⟩
      · have : st1 = st := by
          unfold alignStep close at h1
          rw [abs_real, if_neg (by rw [lt_real]; exact hqc)] at h1
          exact (Option.some.inj h1).symm
        rw [this]
        exact ⟨rfl, rfl⟩

theorem paired_disjoint {nvib : Nat} {tol : ℝ} {freq : Vec ℝ} (hp : Paired nvib tol freq) :
    (incPairs nvib).Pairwise fun p q => |freq p.1 - freq p.2| < tol → |freq q.1 - freq q.2| < tol →
      q.1 ≠ p.1 ∧ q.1 ≠ p.2 ∧ q.2 ≠ p.1 ∧ q.2 ≠ p.2 := by
  have hnd := incPairs_nodup nvib
  rw [List.nodup_iff_pairwise_ne] at hnd
  refine hnd.imp_of_mem ?_
  intro p q hpm hqm hne hpc hqc
  obtain ⟨p1, p2⟩ := incPairs_lt hpm
  obtain ⟨q1, q2⟩ := incPairs_lt hqm
  have hpc' : |freq p.2 - freq p.1| < tol := by rwa [abs_sub_comm]
  have hqc' : |freq q.2 - freq q.1| < tol := by rwa [abs_sub_comm]
  have hne' : p.1 ≠ q.1 ∨ p.2 ≠ q.2 := by
    by_contra h
    simp only [not_or, not_not] at h
    exact hne (Prod.ext h.1 h.2)
  refine ⟨?_, ?_, ?_, ?_⟩ <;> intro e
  · have := hp p.2 p.1 q.2 (by omega) (by omega) (by omega) (by omega) (by omega) (by omega) hpc'
    rw [← e] at this
    linarith
  · have := hp p.1 p.2 q.2 (by omega) (by omega) (by omega) (by omega) (by omega) (by omega) hpc
    rw [← e] at this
    linarith
  · have := hp p.2 p.1 q.1 (by omega) (by omega) (by omega) (by omega) (by omega) (by omega) hpc'
    rw [← e] at this
    linarith
  · have := hp p.1 p.2 q.1 (by omega) (by omega) (by omega) (by omega) (by omega) (by omega) hpc
    rw [← e] at this
    linarith

/-- Each pair of a final mode matrix has just been aligned. -/
theorem sym_modes_pair {s : SpectroIn ℝ} {o : Oracles ℝ ι} {fc2 : Mat ℝ} {m : ModesOut ℝ ι}
    (hs : s.rotor.isSymTop = true) (hm : runModes s o fc2 = some m)
    (hp : Paired s.nvib (alignTol s.linear) (vecOf m.freq)) (i j : Nat) (hij : i < j) (hj : j < s.nvib)
    (hc : |vecOf m.freq i - vecOf m.freq j| < alignTol s.linear) :
    ∃ l l', alignLxm ⟨s.linear, s.nvib, s.n3n, s.natom, s.iatom, s.axisOrder, s.buddy⟩ i j l = some l' ∧
      (∀ r, m.lxm r i = l' r i ∧ m.lxm r j = l' r j) ∧
      ∀ r, l r i = (rawModes s o fc2).2 r i ∧ l r j = (rawModes s o fc2).2 r j := by
  obtain ⟨hf, hb⟩ := runModes_sym hs hm
  rw [← hf] at hb
  unfold bdegnl at hb
  split at hb
  · cases hb
  · exact alignFold_last _ _ _ _ (fun p hp => (incPairs_lt hp).1.ne) (paired_disjoint hp) _ _ hb (i, j)
      (mem_incPairs.2 ⟨hij, hj⟩) hc

/-! ### The sign rule of symmetric tops -/

theorem turnTest_sign {N n x x2 i j m : Nat} {l l' : Mat ℝ} {a b : ℝ} (hx : x < m) (hx2 : x2 + 1 < m)
    (hi : ∀ r < m, l' r i = a * l r i) (hj : ∀ r < m, l' r j = b * l r j) :
    turnTest N n x x2 i j l' = (a * (turnTest N n x x2 i j l).1, b * (turnTest N n x x2 i j l).2) := by
  unfold turnTest
  simp only [hi x hx, hi x2 (by omega), hi (x2 + 1) hx2, hj x2 (by omega), hj (x2 + 1) hx2]
  split
  · simp only [Prod.mk.injEq]
    constructor <;> ring
  · simp only [Prod.mk.injEq]
    constructor <;> ring

theorem turnAgrees_sign {N n x x2 i j m : Nat} {l l' : Mat ℝ} {a b : ℝ} (hx : x < m) (hx2 : x2 + 1 < m)
    (ha : a = 1 ∨ a = -1) (hb : b = 1 ∨ b = -1)
    (hi : ∀ r < m, l' r i = a * l r i) (hj : ∀ r < m, l' r j = b * l r j) :
    TurnAgrees N n x x2 i j l' ↔ TurnAgrees N n x x2 i j l := by
  unfold TurnAgrees
  rw [turnTest_sign hx hx2 hi hj, hi x hx]
  have a1 : |a| = 1 := by rcases ha with rfl | rfl <;> simp
  have b1 : |b| = 1 := by rcases hb with rfl | rfl <;> simp
  simp only [abs_mul, a1, b1, one_mul, abs_div]

theorem firstTurn_sign {N n x x2 i j m : Nat} {l l' : Mat ℝ} {a b : ℝ} (hx : x < m) (hx2 : x2 + 1 < m)
    (ha : a = 1 ∨ a = -1) (hb : b = 1 ∨ b = -1)
    (hi : ∀ r < m, l' r i = a * l r i) (hj : ∀ r < m, l' r j = b * l r j) :
    FirstTurn N n x x2 i j l' ↔ FirstTurn N n x x2 i j l := by
  unfold FirstTurn
  simp only [turnAgrees_sign hx hx2 ha hb hi hj]

theorem fixSign_rule {cfg : AlignCfg} {i j b : Nat} (hij : i ≠ j) {l l' : Mat ℝ} (hl : cfg.linear = false)
    (hb : cfg.buddy = some b) (hx : 3 * cfg.iatom < cfg.n3n) (hx2 : 3 * b + 1 < cfg.n3n)
    (h : fixSign cfg false i j l = some l') (n : Nat)
    (hn : FirstTurn cfg.axisOrder n (3 * cfg.iatom) (3 * b) i j l') :
    0 ≤ (turnTest cfg.axisOrder n (3 * cfg.iatom) (3 * b) i j l').1 *
      (turnTest cfg.axisOrder n (3 * cfg.iatom) (3 * b) i j l').2 := by
  unfold fixSign at h
  rw [hl] at h
  simp only [Bool.false_eq_true, if_false, hb, Option.bind_eq_bind, Option.bind_some] at h
  obtain rfl := Option.some.inj h
  have neg : ∀ l : Mat ℝ, (∀ r < cfg.n3n, negateCol cfg.n3n j l r i = 1 * l r i) ∧
      ∀ r < cfg.n3n, negateCol cfg.n3n j l r j = -1 * l r j := by
    intro l
    refine ⟨fun r hr => ?_, fun r hr => ?_⟩
    · rw [negateCol_apply, if_neg (fun h => hij h.2), one_mul]
    · rw [negateCol_apply, if_pos ⟨hr, rfl⟩, neg_one_mul]
  let N := cfg.axisOrder
  let x := 3 * cfg.iatom
  let x2 := 3 * b
  have cnv : ∀ (l : Mat ℝ) (n : Nat) (k : ℝ), k = n →
      (if Arith.lt (TOLER : ℝ) (Arith.abs (Arith.cos ((Arith.lit (-2.0) * Arith.pi) / (ofNat N : ℝ)))) then
        (Arith.cos ((Arith.lit (-2.0) * Arith.pi) / (ofNat N : ℝ)) * l x i -
            Arith.cos ((Arith.lit (-2.0) * Arith.pi) / (ofNat N : ℝ) * k) * l x2 i,
          l x2 j * Arith.sin (-((Arith.lit (-2.0) * Arith.pi) / (ofNat N : ℝ)) * k),
          (Arith.abs (Arith.cos ((Arith.lit (-2.0) * Arith.pi) / (ofNat N : ℝ)) * l x i -
            Arith.cos ((Arith.lit (-2.0) * Arith.pi) / (ofNat N : ℝ) * k) * l x2 i) -
            Arith.abs (l x2 j * Arith.sin (-((Arith.lit (-2.0) * Arith.pi) / (ofNat N : ℝ)) * k))) / l x i)
        else
        (Arith.sin ((Arith.lit (-2.0) * Arith.pi) / (ofNat N : ℝ)) * l x i -
            Arith.cos ((Arith.lit (-2.0) * Arith.pi) / (ofNat N : ℝ) * k) * l (x2 + 1) i,
          l (x2 + 1) j * Arith.sin (-((Arith.lit (-2.0) * Arith.pi) / (ofNat N : ℝ)) * k),
          (Arith.abs (Arith.sin ((Arith.lit (-2.0) * Arith.pi) / (ofNat N : ℝ)) * l x i -
            Arith.cos ((Arith.lit (-2.0) * Arith.pi) / (ofNat N : ℝ) * k) * l (x2 + 1) i) -
            Arith.abs (l (x2 + 1) j * Arith.sin (-((Arith.lit (-2.0) * Arith.pi) / (ofNat N : ℝ)) * k))) / l x i)) =
      ((turnTest N n x x2 i j l).1, (turnTest N n x x2 i j l).2,
        (|(turnTest N n x x2 i j l).1| - |(turnTest N n x x2 i j l).2|) / l x i) := by
    intro l n k hk
    have two : ((-2.0 : ℚ) : ℝ) = -2 := by norm_num
    subst hk
    simp only [abs_real, cos_real, sin_real, lit_real, two, ofNat_real, pi_real, turnTest, toler_real, lt_real]
    split
    · rfl
    · rfl
  have key : ∀ k ≤ 5, ∃ st, (List.range k).foldl (signStep cfg false b i j) ⟨Arith.lit 0.0, false, l⟩ = st ∧
      st.s = k ∧ ((st.iflag = false ∧ st.lxm = l ∧ ∀ n, 1 ≤ n → n ≤ k → 2 * (n - 1) < N → ¬ TurnAgrees N n x x2 i j l) ∨
        (st.iflag = true ∧ ∃ n, n ≤ k ∧ FirstTurn N n x x2 i j l ∧
          st.lxm = if (turnTest N n x x2 i j l).1 * (turnTest N n x x2 i j l).2 < 0 then negateCol cfg.n3n j l else l)) := by
    intro k
    induction k with
    | zero =>
      intro _
      refine ⟨_, rfl, by rw [List.range_zero, List.foldl_nil, lit_real]; norm_num, .inl ⟨rfl, rfl, by omega⟩⟩
    | succ k ih =>
      intro hk
      obtain ⟨st, hst, hs, hc⟩ := ih (by omega)
      rw [List.range_succ, List.foldl_append, hst, List.foldl_cons, List.foldl_nil]
      have hs1 : st.s + Arith.lit 1.0 = ((k + 1 : Nat) : ℝ) := by
        rw [hs, lit_real]
        push_cast
        norm_num
      refine ⟨_, rfl, ?_, ?_⟩
      · unfold signStep
        extract_lets
        split_ifs <;> exact hs1
      · unfold signStep
        dsimp only
        rw [cnv st.lxm (k + 1) _ hs1]
        by_cases hN : cfg.axisOrder ≤ 2 * k
        · rw [if_pos hN]
          rcases hc with ⟨c1, c2, c3⟩ | ⟨c1, n, c2, c3⟩
          · refine .inl ⟨c1, c2, fun n hn1 hn2 hn3 => ?_⟩
            by_cases e : n = k + 1
            · subst e
              have : N = cfg.axisOrder := rfl
              omega
            · exact c3 n hn1 (by omega) hn3
          · exact .inr ⟨c1, n, by omega, c3⟩
        · rw [if_neg hN]
          rcases hc with ⟨c1, c2, c3⟩ | ⟨c1, n, c2, c3⟩
          · rw [c1, if_neg (by simp)]
            simp only [Bool.not_false, if_true, c2]
            have ht : Arith.lt (Arith.abs ((|(turnTest N (k + 1) x x2 i j l).1| - |(turnTest N (k + 1) x x2 i j l).2|) /
                l x i)) (Arith.lit 0.001 : ℝ) = true ↔ TurnAgrees N (k + 1) x x2 i j l := by
              rw [lt_real, abs_real, lit_real, TurnAgrees]
              norm_num
            by_cases hA : TurnAgrees N (k + 1) x x2 i j l
            · rw [if_pos (ht.2 hA)]
              refine .inr ⟨rfl, k + 1, le_rfl, ⟨by omega, by omega, ?_, hA, fun k' h1 h2 => ?_⟩, ?_⟩
              · have : N = cfg.axisOrder := rfl
                omega
              · refine c3 k' h1 (by omega) ?_
                have : N = cfg.axisOrder := rfl
                omega
              · dsimp only
                congr 1
                rw [lt_real, lit_real]
                norm_num
            · rw [if_neg (fun h => hA (ht.1 h))]
              refine .inl ⟨rfl, rfl, fun n hn1 hn2 hn3 => ?_⟩
              by_cases e : n = k + 1
              · subst e
                exact hA
              · exact c3 n hn1 (by omega) hn3
          · rw [c1, if_pos rfl]
            exact .inr ⟨rfl, n, by omega, c3⟩
  obtain ⟨st, hst, -, hc⟩ := key 5 le_rfl
  rw [hst] at hn ⊢
  rcases hc with ⟨-, c2, c3⟩ | ⟨-, n', -, hF, c3⟩
  · rw [c2] at hn
    exact absurd hn.2.2.2.1 (c3 n hn.1 hn.2.1 hn.2.2.1)
  · have uniq : ∀ {l : Mat ℝ} {n n' : Nat}, FirstTurn N n x x2 i j l → FirstTurn N n' x x2 i j l → n = n' := by
      intro l n n' h h'
      rcases Nat.lt_trichotomy n n' with e | e | e
      · exact absurd h.2.2.2.1 (h'.2.2.2.2 n h.1 e)
      · exact e
      · exact absurd h'.2.2.2.1 (h.2.2.2.2 n' h'.1 e)
    rw [c3] at hn ⊢
    split at hn
    · next hlt =>
      rw [if_pos hlt]
      rw [firstTurn_sign hx hx2 (.inl rfl) (.inr rfl) (neg l).1 (neg l).2] at hn
      obtain rfl := uniq hn hF
      rw [turnTest_sign hx hx2 (neg l).1 (neg l).2]
      dsimp only
      nlinarith
    · next hlt =>
      rw [if_neg hlt]
      obtain rfl := uniq hn hF
      exact not_lt.1 hlt

end Verif
