import Verif.Props.Whole

/-!
# Reversing normal coordinates

What happens to the intermediate results of a run when some of the columns of the mode matrices change sign.
-/

namespace Verif

open Finset

/-- Each mode is kept or reversed. -/
def Signs (σ : Nat → ℝ) : Prop := ∀ i, σ i = 1 ∨ σ i = -1

theorem Signs.sq {σ : Nat → ℝ} (h : Signs σ) (i : Nat) : σ i * σ i = 1 := by
  rcases h i with e | e <;> rw [e] <;> norm_num

theorem Signs.abs {σ : Nat → ℝ} (h : Signs σ) (i : Nat) : |σ i| = 1 := by
  rcases h i with e | e <;> rw [e] <;> norm_num

/-- The input of the sextic constants with some modes reversed. -/
def flipScc (σ : Nat → ℝ) (p : SccIn ℝ) : SccIn ℝ :=
  ⟨p.nvib, p.tau, p.rotcon, p.freq, fun i x y t => σ i * p.cc i x y t, fun i j k => σ i * σ j * σ k * p.f3 i j k,
    fun i s => σ i * p.c i s⟩

section
variable {σ : Nat → ℝ} (hσ : Signs σ)

theorem find3_out {n i j k : Nat} (h : ¬ (i < n ∧ j < n ∧ k < n)) (f : F3qcm ℝ)
    (hl : f.length = n * (n + 1) * (n + 2) / 6) : f3Of f i j k = 0 := by
  have hge : f.length ≤ find3 i j k := by
    by_contra hc
    rw [hl, not_le] at hc
    obtain ⟨a, b, c, ha, hb, hc, e⟩ := (c01_slots_dense n _).1 hc
    have hp := (c01_same_slot_iff a b c i j k).1 e
    have hall : ∀ x ∈ [i, j, k], x < n := by
      intro x hx
      have := hp.mem_iff.2 hx
      simp only [List.mem_cons, List.not_mem_nil, or_false] at this
      rcases this with rfl | rfl | rfl <;> assumption
    exact h ⟨hall i (by simp), hall j (by simp), hall k (by simp)⟩
  rw [f3Of, F3qcm.get, List.getElem?_eq_none hge]
  simp [lit_real]

theorem find4_out {n i j k l : Nat} (h : ¬ (i < n ∧ j < n ∧ k < n ∧ l < n)) (f : F4qcm ℝ)
    (hl : f.length = n * (n + 1) * (n + 2) * (n + 3) / 24) : f4Of f i j k l = 0 := by
  have hge : f.length ≤ find4 i j k l := by
    by_contra hc
    rw [hl, not_le] at hc
    obtain ⟨a, b, c, d, ha, hb, hc, hd, e⟩ := (c02_slots_dense n _).1 hc
    have hp := (c02_same_slot_iff a b c d i j k l).1 e
    have hall : ∀ x ∈ [i, j, k, l], x < n := by
      intro x hx
      have := hp.mem_iff.2 hx
      simp only [List.mem_cons, List.not_mem_nil, or_false] at this
      rcases this with rfl | rfl | rfl | rfl <;> assumption
    exact h ⟨hall i (by simp), hall j (by simp), hall k (by simp), hall l (by simp)⟩
  rw [f4Of, F4qcm.get, List.getElem?_eq_none hge]
  simp [lit_real]

theorem form3_scale (n : Nat) (f : Nat → Nat → Nat → ℝ) (a b c : ℝ) (u v w u' v' w' : Nat → ℝ)
    (hu : ∀ r < n, u' r = a * u r) (hv : ∀ r < n, v' r = b * v r) (hw : ∀ r < n, w' r = c * w r) :
    form3 n f u' v' w' = a * b * c * form3 n f u v w := by
  unfold form3
  simp only [mul_sum]
  refine sum_congr rfl fun x hx => sum_congr rfl fun y hy => sum_congr rfl fun z hz => ?_
  rw [hu x (mem_range.1 hx), hv y (mem_range.1 hy), hw z (mem_range.1 hz)]
  ring

theorem form4_scale (n : Nat) (f : Nat → Nat → Nat → Nat → ℝ) (a b c d : ℝ) (u v w s u' v' w' s' : Nat → ℝ)
    (hu : ∀ r < n, u' r = a * u r) (hv : ∀ r < n, v' r = b * v r) (hw : ∀ r < n, w' r = c * w r)
    (hs : ∀ r < n, s' r = d * s r) : form4 n f u' v' w' s' = a * b * c * d * form4 n f u v w s := by
  unfold form4
  simp only [mul_sum]
  refine sum_congr rfl fun x hx => sum_congr rfl fun y hy => sum_congr rfl fun z hz => sum_congr rfl fun t ht => ?_
  rw [hu x (mem_range.1 hx), hv y (mem_range.1 hy), hw z (mem_range.1 hz), hs t (mem_range.1 ht)]
  ring

/-- The cubic constants change sign with each reversed mode. -/
theorem force3_flip {n nvib : Nat} {f : T3 ℝ} {lx lx' : Mat ℝ} {freq : Vec ℝ} (hs : Symm3 n f) (hn : nvib ≤ n)
    (h : ∀ r < n, ∀ j < nvib, lx' r j = σ j * lx r j) :
    f3Of (force3 n f lx' nvib freq) = fun i j k => σ i * σ j * σ k * f3Of (force3 n f lx nvib freq) i j k := by
  obtain ⟨l1, g1⟩ := c13_contraction n nvib f lx freq hs hn
  obtain ⟨l2, g2⟩ := c13_contraction n nvib f lx' freq hs hn
  funext i j k
  by_cases hr : i < nvib ∧ j < nvib ∧ k < nvib
  · obtain ⟨hi, hj, hk⟩ := hr
    rw [f3Of, g2 i j k hi hj hk, f3Of, g1 i j k hi hj hk, Option.getD_some, Option.getD_some,
      form3_scale n f (σ i) (σ j) (σ k) (colOf lx i) (colOf lx j) (colOf lx k) (colOf lx' i) (colOf lx' j)
        (colOf lx' k) (fun r hr => h r hr i hi) (fun r hr => h r hr j hj)
        (fun r hr => h r hr k hk)]
    ring
  · rw [find3_out hr _ l1, find3_out hr _ l2, mul_zero]

/-- The quartic constants as well. -/
theorem force4_flip {n nvib : Nat} {f : T4 ℝ} {lx lx' : Mat ℝ} {freq : Vec ℝ} {F F' : F4qcm ℝ} (hs : Symm4 n f)
    (hn : nvib ≤ n) (h0 : 0 < nvib) (h : ∀ r < n, ∀ j < nvib, lx' r j = σ j * lx r j)
    (hF : force4 n f lx nvib freq = some F) (hF' : force4 n f lx' nvib freq = some F') :
    f4Of F' = fun i j k l => σ i * σ j * σ k * σ l * f4Of F i j k l := by
  obtain ⟨t, e1, l1, g1⟩ := c14_contraction n nvib f lx freq hs hn h0
  obtain ⟨t', e2, l2, g2⟩ := c14_contraction n nvib f lx' freq hs hn h0
  obtain rfl : t = F := Option.some.inj (e1.symm.trans hF)
  obtain rfl : t' = F' := Option.some.inj (e2.symm.trans hF')
  funext i j k l
  by_cases hr : i < nvib ∧ j < nvib ∧ k < nvib ∧ l < nvib
  · obtain ⟨hi, hj, hk, hl⟩ := hr
    rw [f4Of, g2 i j k l hi hj hk hl, f4Of, g1 i j k l hi hj hk hl, Option.getD_some, Option.getD_some,
      form4_scale n f (σ i) (σ j) (σ k) (σ l) (colOf lx i) (colOf lx j) (colOf lx k) (colOf lx l) (colOf lx' i)
        (colOf lx' j) (colOf lx' k) (colOf lx' l) (fun r hr => h r hr i hi) (fun r hr => h r hr j hj)
        (fun r hr => h r hr k hk) (fun r hr => h r hr l hl)]
    ring
  · rw [find4_out hr _ l1, find4_out hr _ l2, mul_zero]

/-- The Coriolis constants. -/
theorem makeZmat_flip {nvib natom : Nat} {lxm lxm' : Mat ℝ}
    (h : ∀ r < 3 * natom, ∀ j < nvib, lxm' r j = σ j * lxm r j) :
    makeZmat nvib natom lxm' = fun i j x => σ i * σ j * makeZmat nvib natom lxm i j x := by
  funext i j x
  unfold makeZmat
  by_cases hr : i < nvib ∧ j < nvib
  · have hi := hr.1
    have hj := hr.2
    rw [if_pos hr, if_pos hr]
    simp only [sumTo_real, lit_real, Rat.cast_zero]
    split_ifs
    · rw [mul_sum]
      refine sum_congr rfl fun a ha => ?_
      have ha := mem_range.1 ha
      rw [h _ (by omega) i hi, h _ (by omega) j hj, h _ (by omega) i hi, h _ (by omega) j hj]
      ring
    · rw [mul_sum]
      refine sum_congr rfl fun a ha => ?_
      have ha := mem_range.1 ha
      rw [h _ (by omega) i hi, h _ (by omega) j hj, h _ (by omega) i hi, h _ (by omega) j hj]
      ring
    · rw [mul_sum]
      refine sum_congr rfl fun a ha => ?_
      have ha := mem_range.1 ha
      rw [h _ (by omega) i hi, h _ (by omega) j hj, h _ (by omega) i hi, h _ (by omega) j hj]
      ring
    · ring
  · rw [if_neg hr, if_neg hr]
    simp [lit_real]

/-- The derivatives of the inertia tensor. -/
theorem wilsonA_flip {nvib natom : Nat} {pos : Nat → Nat → ℝ} {w : Vec ℝ} {lxm lxm' : Mat ℝ}
    (h : ∀ r < 3 * natom, ∀ j < nvib, lxm' r j = σ j * lxm r j) :
    wilsonA nvib natom pos lxm' w = fun k c => σ k * wilsonA nvib natom pos lxm w k c := by
  funext k c
  unfold wilsonA
  by_cases hk : k < nvib
  · rw [if_pos hk, if_pos hk]
    simp only [sumTo_real, lit_real, foldl_sub_real, range_sum_list, sqrt_real]
    rw [mul_left_comm]
    congr 1
    have e1 : ∀ f g : Nat → ℝ, (∀ a < natom, f a = σ k * g a) → ∑ a ∈ range natom, f a = σ k * ∑ a ∈ range natom, g a := by
      intro f g hfg
      rw [mul_sum]
      exact sum_congr rfl fun a ha => hfg a (mem_range.1 ha)
    split_ifs
    · refine e1 _ _ fun a ha => ?_
      rw [h _ (by omega) k hk, h _ (by omega) k hk]; ring
    · refine e1 _ _ fun a ha => ?_
      rw [h _ (by omega) k hk, h _ (by omega) k hk]; ring
    · refine e1 _ _ fun a ha => ?_
      rw [h _ (by omega) k hk, h _ (by omega) k hk]; ring
    · rw [e1 (fun i => _) (fun i => Real.sqrt (w i) * pos i 0 * lxm (3 * i + 1) k) fun a ha => by
        rw [h _ (by omega) k hk]; ring]
      push_cast; ring
    · rw [e1 (fun i => _) (fun i => Real.sqrt (w i) * pos i 0 * lxm (3 * i + 2) k) fun a ha => by
        rw [h _ (by omega) k hk]; ring]
      push_cast; ring
    · rw [e1 (fun i => _) (fun i => Real.sqrt (w i) * pos i 1 * lxm (3 * i + 2) k) fun a ha => by
        rw [h _ (by omega) k hk]; ring]
      push_cast; ring
    · simp
  · rw [if_neg hk, if_neg hk]
    simp [lit_real]

include hσ

/-! ### Results that do not notice -/

theorem abs3 (i j k : Nat) (x : ℝ) : |σ i * σ j * σ k * x| = |x| := by
  rw [abs_mul, abs_mul, abs_mul, hσ.abs, hσ.abs, hσ.abs]; ring

theorem abs2 (i j : Nat) (x : ℝ) : |σ i * σ j * x| = |x| := by
  rw [abs_mul, abs_mul, hσ.abs, hσ.abs]; ring

theorem sq3 (i j k : Nat) (x : ℝ) : sq (σ i * σ j * σ k * x) = sq x := by
  rcases hσ i with a | a <;> rcases hσ j with b | b <;> rcases hσ k with c | c <;>
    simp [a, b, c, sq_real]

theorem sq2 (i j : Nat) (x : ℝ) : sq (σ i * σ j * x) = sq x := by
  rcases hσ i with a | a <;> rcases hσ j with b | b <;> simp [a, b, sq_real]

theorem sq1 (i : Nat) (x : ℝ) : sq (σ i * x) = sq x := by
  rcases hσ i with a | a <;> simp [a, sq_real]

theorem reststNew_flip (nvib i2vib : Nat) (z f3 : T3 ℝ) (w : Vec ℝ) :
    reststNew .asymmTop nvib i2vib (fun i j x => σ i * σ j * z i j x) (fun i j k => σ i * σ j * σ k * f3 i j k) w =
      reststNew .asymmTop nvib i2vib z f3 w := by
  simp only [reststNew, coriolis, fermi1, fermi2, coriolisAsym, fermi2Asym, corTest, ferm1Test, ferm2Test,
    abs_real, abs3 hσ, abs2 hσ]

theorem xcalc_flip (nvib : Nat) (f4 : T4 ℝ) (w : Vec ℝ) (f3 z : T3 ℝ) (B : Vec ℝ) (modes : List Mode)
    (f1 : List Fermi1) (f2 : List Fermi2) :
    xcalc nvib (fun i j k l => σ i * σ j * σ k * σ l * f4 i j k l) w (fun i j k => σ i * σ j * σ k * f3 i j k)
      (fun i j x => σ i * σ j * z i j x) B modes f1 f2 = xcalc nvib f4 w f3 z B modes f1 f2 := by
  have e4 : ∀ k l x, σ k * σ k * σ l * σ l * x = x := fun k l x => by
    rw [hσ.sq, one_mul, hσ.sq, one_mul]
  have e33 : ∀ k l m x y, σ k * σ k * σ m * x * (σ l * σ l * σ m * y) = x * y := fun k l m x y => by
    rw [hσ.sq, hσ.sq]
    linear_combination x * y * hσ.sq m
  simp only [xcalc, xcalcMat, makeE0, xDiag, xOff, e0kkl, e0klm, sq3 hσ, sq2 hσ, e4, e33]

theorem makeTau_flip (nvib : Nat) (w I : Vec ℝ) (A : Mat ℝ) :
    makeTau nvib w I (fun k c => σ k * A k c) = makeTau nvib w I A := by
  have e : ∀ v x y, σ v * x * (σ v * y) = x * y := fun v x y => by linear_combination x * y * hσ.sq v
  funext i j k l
  simp only [makeTau, e]

theorem quartic_flip (rotor : Rotor) (nvib : Nat) (B w I : Vec ℝ) (A : Mat ℝ) :
    Quartic.new rotor nvib B I w (fun k c => σ k * A k c) = Quartic.new rotor nvib B I w A := by
  simp only [Quartic.new, makeTau_flip hσ]

theorem alpha_flip (nvib : Nat) (B I w : Vec ℝ) (A : Mat ℝ) (z f3 : T3 ℝ) (cor : List Coriolis) :
    alpha nvib B I w (fun k c => σ k * A k c) (fun i j x => σ i * σ j * z i j x)
      (fun i j k => σ i * σ j * σ k * f3 i j k) cor = alpha nvib B I w A z f3 cor := by
  have e : ∀ i j x y, σ j * x * (σ i * σ i * σ j * y) = x * y := fun i j x y => by
    rw [hσ.sq]
    linear_combination x * y * hσ.sq j
  funext i x
  simp only [alpha, alphaEntry, corReg, corFull, sq2 hσ, sq1 hσ, e]

theorem cMat_flip (maxcor nvib : Nat) (w I : Vec ℝ) (A : Mat ℝ) :
    cMat maxcor nvib w I (fun k c => σ k * A k c) = fun k c => σ k * cMat maxcor nvib w I A k c := by
  unfold cMat
  generalize ((List.range nvib).flatMap fun i => (List.range maxcor).flatMap fun x =>
    (List.range (x + 1)).map fun y => (i, x, y)) = L
  have h0 : (fun _ _ => Arith.lit 0 : Mat ℝ) = fun k c => σ k * (fun _ _ => Arith.lit 0 : Mat ℝ) k c := by
    funext k c
    simp [lit_real]
  conv_lhs => rw [h0]
  generalize (fun _ _ => Arith.lit 0 : Mat ℝ) = M
  induction L generalizing M with
  | nil => rfl
  | cons p L ih =>
    rw [List.foldl_cons, List.foldl_cons, ← ih]
    congr 1
    funext k c
    simp only [Mat.set]
    split
    · rename_i h
      rw [h.1]
      ring
    · rfl

theorem ccTensor_flip (nvib maxcor : Nat) (w B : Vec ℝ) (c : Mat ℝ) (z : T3 ℝ) :
    ccTensor nvib maxcor w (fun k s => σ k * c k s) (fun i j x => σ i * σ j * z i j x) B =
      fun i x y t => σ i * ccTensor nvib maxcor w c z B i x y t := by
  have dg : ∀ i x, ccDiag nvib w (fun k s => σ k * c k s) (fun i j x => σ i * σ j * z i j x) B i x =
      σ i * ccDiag nvib w c z B i x := by
    intro i x
    simp only [ccDiag, sumTo_real]
    rw [← mul_div_assoc, mul_sum]
    congr 1
    refine sum_congr rfl fun j _ => ?_
    linear_combination (σ i * c j (ioff (x + 1) - 1) * z j i (x - 1) * B (x - 1) * Arith.powf15 (w j) * ccFac w i j) * hσ.sq j
  have pr : ∀ i x y, ccPair nvib w (fun k s => σ k * c k s) (fun i j x => σ i * σ j * z i j x) B i x y =
      σ i * ccPair nvib w c z B i x y := by
    intro i x y
    simp only [ccPair, sumTo_real]
    rw [← mul_div_assoc, mul_sum]
    congr 1
    refine sum_congr rfl fun j _ => ?_
    linear_combination (σ i * (Arith.powf15 (w j) * (c j (ioff (x + 1) - 1) * z j i (y - 1) * B (y - 1) +
      Arith.lit 2.0 * c j (ioff (max x y) + min x y - 1) * z j i (x - 1) * B (x - 1))) * ccFac w i j) * hσ.sq j
  have tr : ∀ i x y t, ccTriple nvib w (fun k s => σ k * c k s) (fun i j x => σ i * σ j * z i j x) B i x y t =
      σ i * ccTriple nvib w c z B i x y t := by
    intro i x y t
    simp only [ccTriple, sumTo_real]
    rw [← mul_div_assoc, mul_sum]
    congr 1
    refine sum_congr rfl fun j _ => ?_
    linear_combination (σ i * (Arith.powf15 (w j) * (c j (ioff (max y t) + min y t - 1) * z j i (x - 1) * B (x - 1) +
      c j (ioff (max x t) + min x t - 1) * z j i (y - 1) * B (y - 1) +
      c j (ioff (max x y) + min x y - 1) * z j i (t - 1) * B (t - 1))) * ccFac w i j) * hσ.sq j
  have wr : ccWrites nvib maxcor w (fun k s => σ k * c k s) (fun i j x => σ i * σ j * z i j x) B =
      (ccWrites nvib maxcor w c z B).map fun q => (q.1, σ q.1.1 * q.2) := by
    simp only [ccWrites, dg, pr, tr, List.map_flatMap, List.map_append, List.map_cons, List.map_nil, apply_ite (List.map _)]
  unfold ccTensor
  rw [wr, List.foldl_map]
  generalize ccWrites nvib maxcor w c z B = L
  have h0 : (fun _ _ _ _ => Arith.lit 0 : T4 ℝ) = fun i x y t => σ i * (fun _ _ _ _ => Arith.lit 0 : T4 ℝ) i x y t := by
    funext i x y t
    simp [lit_real]
  conv_lhs => rw [h0]
  generalize (fun _ _ _ _ => Arith.lit 0 : T4 ℝ) = M
  induction L generalizing M with
  | nil => rfl
  | cons p L ih =>
    rw [List.foldl_cons, List.foldl_cons, ← ih]
    congr 1
    funext i x y t
    simp only [T4.set]
    split
    · rename_i h
      rw [h.1]
    · rfl

theorem scc_flip (p : SccIn ℝ) (rotor : Rotor) (maxcor nfreq : Nat) :
    scc (flipScc σ p) rotor maxcor nfreq = scc p rotor maxcor nfreq := by
  have e2 : ∀ i x y, σ i * x * (σ i * y) = x * y := fun i x y => by linear_combination x * y * hσ.sq i
  have e2' : ∀ i a x y, a * (σ i * x) * (σ i * y) = a * x * y := fun i a x y => by
    linear_combination a * x * y * hσ.sq i
  have tri : ∀ (n : Nat) (F G : Nat → Nat → Nat → ℝ), (∀ i j k, F i j k = G i j k) → sumTriples n F = sumTriples n G := by
    intro n F G h
    congr 1
    funext i j k
    exact h i j k
  have key : ∀ p : SccIn ℝ, sccWrites (flipScc σ p) rotor maxcor = sccWrites p rotor maxcor := by
    intro p
    have d : ∀ lin x, sccDiag (flipScc σ p) maxcor lin x = sccDiag p maxcor lin x := by
      intro lin x
      simp only [sccDiag, flipScc, sq1 hσ]
      refine congrArg₂ (· + ·) (congrArg₂ (· + ·) rfl (congrArg (· / Arith.lit 6.0) (tri _ _ _ fun i j k => ?_))) rfl
      rcases hσ i with a | a <;> rcases hσ j with b | b <;> rcases hσ k with c | c <;> rw [a, b, c] <;> ring
    have pr : ∀ x y, sccPair (flipScc σ p) x y = sccPair p x y := by
      intro x y
      simp only [sccPair, flipScc, sq1 hσ, e2']
      refine congrArg₂ (· + ·) (congrArg₂ (· + ·) (congrArg₂ (· + ·) (congrArg₂ (· + ·) rfl
        (congrArg (· / Arith.lit 4.0) (tri _ _ _ fun i j k => ?_))) rfl) rfl) rfl
      rcases hσ i with a | a <;> rcases hσ j with b | b <;> rcases hσ k with c | c <;> rw [a, b, c] <;> ring
    have t : sccXyz (flipScc σ p) = sccXyz p := by
      simp only [sccXyz, flipScc, sq1 hσ, e2]
      refine congrArg₂ (· + ·) (congrArg₂ (· + ·) (congrArg₂ (· + ·) (congrArg₂ (· + ·) rfl
        (congrArg (· * Arith.lit 0.5) (tri _ _ _ fun i j k => ?_))) rfl) rfl) rfl
      rcases hσ i with a | a <;> rcases hσ j with b | b <;> rcases hσ k with c | c <;> rw [a, b, c] <;> ring
    simp only [sccWrites, d, pr, t]
  unfold scc
  by_cases h6 : nfreq = 6
  · simp only [if_pos h6]
    rw [← key { p with rotcon := fun i => p.rotcon (2 - i) }]
    rfl
  · simp only [if_neg h6]
    rw [key p]

theorem sextic_flip (rotor : Rotor) (nvib nfreq : Nat) (B I w : Vec ℝ) (A : Mat ℝ) (z f3 : T3 ℝ) :
    Sextic.new rotor nvib nfreq B I w (fun k c => σ k * A k c) (fun i j x => σ i * σ j * z i j x)
      (fun i j k => σ i * σ j * σ k * f3 i j k) = Sextic.new rotor nvib nfreq B I w A z f3 := by
  have h : sexticScc rotor nvib nfreq B I w (fun k c => σ k * A k c) (fun i j x => σ i * σ j * z i j x)
      (fun i j k => σ i * σ j * σ k * f3 i j k) = sexticScc rotor nvib nfreq B I w A z f3 := by
    simp only [sexticScc, cMat_flip hσ, ccTensor_flip hσ, makeTau_flip hσ]
    exact scc_flip hσ ⟨nvib, _, B, w, _, f3, _⟩ _ _ _
  simp only [Sextic.new, makeTau_flip hσ, h]

theorem pushed_flip (n : Nat) (f1 : List Fermi1) (f2 : List Fermi2) (nu : Nat → ℝ) (x : Nat → Nat → ℝ) (F3 : T3 ℝ) :
    pushed n f1 f2 nu x (fun i j k => σ i * σ j * σ k * F3 i j k) = pushed n f1 f2 nu x F3 := by
  have e : ∀ p k, pairCoupling (fun i j k => σ i * σ j * σ k * F3 i j k) p k ^ 2 = pairCoupling F3 p k ^ 2 := by
    intro p k
    unfold pairCoupling
    split
    · rcases hσ p.1 with a | a <;> rcases hσ k with c | c <;> simp only [a, c] <;> ring
    · rcases hσ p.1 with a | a <;> rcases hσ p.2 with b | b <;> rcases hσ k with c | c <;> simp only [a, b, c] <;> ring
  have t : ∀ p q v v' : ℝ, v ^ 2 = v' ^ 2 → twoLevel p q v = twoLevel p q v' := by
    intro p q v v' h
    simp only [twoLevel, h]
  funext k
  unfold pushed
  congr 1
  funext e' p
  rw [t _ _ _ _ (e p k)]

end

end Verif
