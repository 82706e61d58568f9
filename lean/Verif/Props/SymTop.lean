import Verif.Lemmas.SymTopExample
import Verif.Lemmas.Extended
import Verif.Props.Sextic

/-! C96: the distortion constants of symmetric tops and the Hamiltonian. -/

namespace Verif

open MvPolynomial

/-! ### Both kinds of symmetric tops -/

/-- C96, in part: for a symmetric top with a plane of symmetry that contains the axis (axis 2), the coefficients `τ'/4` and
the tensor of sextic coefficients describe what a canonical transformation makes of the Hamiltonian of the molecule: the terms
odd in some component are removed. The constants of the axes 0 and 1 may be equal. Missing: symmetric tops without such a plane,
and unique constants that differ from the others by less than 1/200. -/
theorem c96_tensor_partial (rotor : Rotor) (hr : rotor = .oblateSymmTop ∨ rotor = .prolateSymmTop) (nvib nfreq : Nat)
    (hn : nfreq ≠ 6) (rotcon primat freq : Vec ℝ) (wila : Mat ℝ) (zmat f3 : T3 ℝ)
    (h02 : 1 / 200 < |rotcon 0 - rotcon 2|) (h12 : 1 / 200 < |rotcon 1 - rotcon 2|)
    (hf : ∀ i j k, f3 i j k = f3 j i k ∧ f3 i j k = f3 i k j) :
    let D : RotorData := ⟨nvib, rotcon, primat, freq, fun v i j => wila v (pairIdx i j), zmat, f3⟩
    Mirror D.H4 → Mirror D.H6 →
    ∃ s t, SkewGen 3 s ∧ SkewGen 5 t ∧ Transforms s t (rotorH rotcon) D.H4 D.H6
      (quarticH fun i j => tauPrime (makeTau nvib freq primat wila) i j / 4)
      (sexticH (sexticScc rotor nvib nfreq rotcon primat freq wila zmat f3)) :=
  fun m4 m6 => top_skew hr hn h02 h12 (fun i j k => (hf i j k).1) (fun i j k => (hf i j k).2) m4 m6

/-- Rotational constants of a prolate and of an oblate top. -/
def proB : Vec ℝ
  | 2 => 2
  | _ => 1
def oblB : Vec ℝ
  | 2 => 1
  | _ => 2

/-- A molecule with an axis of order three; the degenerate modes have terms odd in `z`. -/
example : ∃ s t, SkewGen 3 s ∧ SkewGen 5 t ∧ Transforms s t (rotorH proB) (topData 1 proB).H4 (topData 1 proB).H6
    (quarticH fun i j => tauPrime (makeTau 3 (fun _ => 1) (fun _ => 1) (topWila 1)) i j / 4)
    (sexticH (sexticScc .prolateSymmTop 3 12 proB (fun _ => 1) (fun _ => 1) (topWila 1) (fun _ _ _ => 0) topF3)) :=
  c96_tensor_partial .prolateSymmTop (Or.inr rfl) 3 12 (by norm_num) proB (fun _ => 1) (fun _ => 1) (topWila 1)
    (fun _ _ _ => 0) topF3 (by norm_num [proB]) (by norm_num [proB]) topF3_symm (top_mirror 1 proB).1 (top_mirror 1 proB).2

/-! ### Prolate tops -/

/-- C96, in part: a prolate top with an axis of symmetry (axis 2, the rotation with cosine `c` and sine `s`) not of order two or
four. The sextic constants of the S reduction and the quartic constants named after Wilson are the coefficients of the Hamiltonian
that a canonical transformation makes of the one of the molecule. Missing: the other quartic constants
(`c96_prolate_violated`), and axes of order four. -/
theorem c96_prolate_partial (nvib nfreq : Nat) (hn : nfreq ≠ 6) (rotcon primat freq : Vec ℝ) (wila : Mat ℝ) (zmat f3 : T3 ℝ)
    (h01 : rotcon 0 = rotcon 1) (h02 : 1 / 200 < |rotcon 0 - rotcon 2|)
    (hf : ∀ i j k, f3 i j k = f3 j i k ∧ f3 i j k = f3 i k j) (q : Quartic ℝ)
    (hq : Quartic.new .prolateSymmTop nvib rotcon primat freq wila = some q) (c s : ℝ) (hc : c ^ 2 + s ^ 2 = 1) (hcs : c * s ≠ 0) :
    let D : RotorData := ⟨nvib, rotcon, primat, freq, fun v i j => wila v (pairIdx i j), zmat, f3⟩
    let S := Sextic.new .prolateSymmTop nvib nfreq rotcon primat freq wila zmat f3
    Mirror D.H4 → Mirror D.H6 → Turn c s D.H4 → Turn c s D.H6 →
    ∃ s t, SkewGen 3 s ∧ SkewGen 5 t ∧ Transforms s t (rotorH rotcon) D.H4 D.H6
      (watsonS4 1 0 2 q.djw q.djkw q.dkw 0 0) (watsonS6 1 0 2 S.hj S.hjk S.hkj S.hk S.h1 S.h2 S.h3) := by
  intro D S m4 m6 r4 r6
  obtain ⟨⟨e1, e2, e3⟩, hφ⟩ := top_turn (rotor := .prolateSymmTop) (Or.inr rfl) hn h01 h02 (fun i j k => (hf i j k).1)
    (fun i j k => (hf i j k).2) m4 m6 hc hcs r4 r6
  obtain ⟨q1, q2, q3, -⟩ := quartic_top (Or.inr rfl) (fun _ => by
    have n := sub_ne_zero.2 (apart_ne h02).symm
    rw [← h01, show 2 * rotcon 0 - rotcon 2 - rotcon 0 = -(rotcon 2 - rotcon 0) by ring, neg_div, div_self n]
    norm_num) hq e1 e2 e3
  have h := top_skew (rotor := .prolateSymmTop) (Or.inr rfl) hn h02 (h01 ▸ h02) (fun i j k => (hf i j k).1)
    (fun i j k => (hf i j k).2) m4 m6
  rw [quarticH_top (tau4_comm _ _ _ _) e1 e2 e3, ← q1, ← q2, ← q3, sextic_top (Or.inr rfl) _ _ _ _ _ _ _ _ e1 e3.symm hφ] at h
  exact h

theorem half_sqrt_three : ((-1 / 2 : ℝ)) ^ 2 + (√3 / 2) ^ 2 = 1 ∧ (-1 / 2 : ℝ) * (√3 / 2) ≠ 0 ∧ (√3 / 2) ^ 2 = 3 / 4 := by
  have h : √3 ^ 2 = 3 := Real.sq_sqrt (by norm_num)
  have h0 : √3 ≠ 0 := fun h0 => by rw [h0] at h; norm_num at h
  refine ⟨by rw [div_pow, div_pow, h]; norm_num, ?_, by rw [div_pow, h]; norm_num⟩
  exact mul_ne_zero (by norm_num) (div_ne_zero h0 two_ne_zero)

/-- A prolate top with an axis of order three; the quartic constants exist. -/
example : ∃ q, Quartic.new .prolateSymmTop 3 proB (fun _ => 1) (fun _ => 1) (topWila 1) = some q ∧
    let S := Sextic.new .prolateSymmTop 3 12 proB (fun _ => 1) (fun _ => 1) (topWila 1) (fun _ _ _ => 0) topF3
    ∃ s t, SkewGen 3 s ∧ SkewGen 5 t ∧ Transforms s t (rotorH proB) (topData 1 proB).H4 (topData 1 proB).H6
      (watsonS4 1 0 2 q.djw q.djkw q.dkw 0 0) (watsonS6 1 0 2 S.hj S.hjk S.hkj S.hk S.h1 S.h2 S.h3) := by
  obtain ⟨q, hq⟩ := Option.isSome_iff_exists.1 ((quartic_isSome .prolateSymmTop 3 proB (fun _ => 1) (fun _ => 1)
    (topWila 1)).2 ⟨by decide, by decide⟩)
  obtain ⟨h1, h2, h3⟩ := half_sqrt_three
  exact ⟨q, hq, c96_prolate_partial 3 12 (by norm_num) proB (fun _ => 1) (fun _ => 1) (topWila 1) (fun _ _ _ => 0) topF3
    (by norm_num [proB]) (by norm_num [proB]) topF3_symm q hq _ _ h1 h2 (top_mirror 1 proB).1 (top_mirror 1 proB).2
    (top_turned 1 proB h3).1 ((top_turned 1 proB h3).2 (by norm_num [proB]))⟩

/-- A transformation changes nothing for rotation about the axis `z`. -/
theorem transforms_z {s t H4 H6 H4' H6' : Poly} {B : ℕ → ℝ} (h : Transforms s t (rotorH B) H4 H6 H4' H6') :
    eval ![0, 0, 1] H4' = eval ![0, 0, 1] H4 := by
  rw [h.1, map_add, eval_bracket]
  simp only [rotorH, sum3, map_add, map_mul, map_pow, Derivation.leibniz, Derivation.leibniz_pow, pderiv_C, pd, smul_eq_mul,
    nsmul_eq_mul, eval_C, eval_X]
  simp

/-- C96 is violated by the quartic constants of prolate tops that are not named after Wilson: `Quartic::new` takes axis 0 for the
unique axis. For this molecule no transformation leads to the Hamiltonian with the reported constants, whichever of the other
axes is called `x`. -/
theorem c96_prolate_violated : ∃ q, Quartic.new .prolateSymmTop 3 proB (fun _ => 1) (fun _ => 1) (topWila 1) = some q ∧
    proB 0 = proB 1 ∧ proB 1 < proB 2 ∧
    Mirror (topData 1 proB).H4 ∧ Mirror (topData 1 proB).H6 ∧
    Turn (-1 / 2) (√3 / 2) (topData 1 proB).H4 ∧ Turn (-1 / 2) (√3 / 2) (topData 1 proB).H6 ∧
    ∀ x y H6', (x, y) = ((0 : Fin 3), (1 : Fin 3)) ∨ (x, y) = (1, 0) →
      ¬ ∃ s t, Transforms s t (rotorH proB) (topData 1 proB).H4 (topData 1 proB).H6
        (watsonS4 x y 2 q.dj q.djk q.dk q.sd1 q.sd2) H6' := by
  obtain ⟨h1, h2, h3⟩ := half_sqrt_three
  obtain ⟨q, hq⟩ := Option.isSome_iff_exists.1 ((quartic_isSome .prolateSymmTop 3 proB (fun _ => 1) (fun _ => 1)
    (topWila 1)).2 ⟨by decide, by decide⟩)
  refine ⟨q, hq, by norm_num [proB], by norm_num [proB], (top_mirror 1 proB).1, (top_mirror 1 proB).2, (top_turned 1 proB h3).1,
    (top_turned 1 proB h3).2 (by norm_num [proB]), ?_⟩
  rintro x y H6' hxy ⟨s, t, h⟩
  have e := transforms_z h
  rw [topData_H4] at e
  have e0 : eval ![0, 0, 1] (watsonS4 x y 2 q.dj q.djk q.dk q.sd1 q.sd2) = -(q.dj + q.djk + q.dk) := by
    rcases hxy with hxy | hxy <;>
    · obtain ⟨rfl, rfl⟩ := Prod.mk.inj hxy
      simp [watsonS4, jj, re2, re4]
  have e1 : q.dj + q.djk + q.dk = -(tauPrime (makeTau 3 (fun _ => 1) (fun _ => 1) (topWila 1)) 0 0 / 4) :=
    quartic_prolate_sum hq
  have e2 : tauPrime (makeTau 3 (fun _ => 1) (fun _ => 1) (topWila 1)) 0 0 = -38333.84078 := by
    simp only [tauPrime, ne_eq, not_true_eq_false, if_false]
    rw [c44_value, tauSpec]
    norm_num [pairIdx, ioff, topWila, Finset.sum_range_succ]
  rw [e0, e1, e2] at e
  norm_num [topA, topE1, topE2] at e

/-! ### Oblate tops -/

/-- C96, in part: an oblate top with an axis of symmetry (axis 2) not of order two or four. All the quartic constants are the
coefficients of the Hamiltonian that a canonical transformation makes of the one of the molecule. Missing: axes of order four, and
the sextic constants (`c96_oblate_violated`). -/
theorem c96_oblate_partial (nvib nfreq : Nat) (hn : nfreq ≠ 6) (rotcon primat freq : Vec ℝ) (wila : Mat ℝ) (zmat f3 : T3 ℝ)
    (h01 : rotcon 0 = rotcon 1) (h02 : 1 / 200 < |rotcon 0 - rotcon 2|)
    (hf : ∀ i j k, f3 i j k = f3 j i k ∧ f3 i j k = f3 i k j) (q : Quartic ℝ)
    (hq : Quartic.new .oblateSymmTop nvib rotcon primat freq wila = some q) (c s : ℝ) (hc : c ^ 2 + s ^ 2 = 1) (hcs : c * s ≠ 0) :
    let D : RotorData := ⟨nvib, rotcon, primat, freq, fun v i j => wila v (pairIdx i j), zmat, f3⟩
    Mirror D.H4 → Mirror D.H6 → Turn c s D.H4 → Turn c s D.H6 →
    ∃ s t, SkewGen 3 s ∧ SkewGen 5 t ∧ Transforms s t (rotorH rotcon) D.H4 D.H6
      (watsonS4 1 0 2 q.dj q.djk q.dk q.sd1 q.sd2)
      (sexticH (sexticScc .oblateSymmTop nvib nfreq rotcon primat freq wila zmat f3)) ∧
    watsonS4 1 0 2 q.dj q.djk q.dk q.sd1 q.sd2 = watsonS4 1 0 2 q.djw q.djkw q.dkw 0 0 := by
  intro D m4 m6 r4 r6
  obtain ⟨⟨e1, e2, e3⟩, -⟩ := top_turn (rotor := .oblateSymmTop) (Or.inl rfl) hn h01 h02 (fun i j k => (hf i j k).1)
    (fun i j k => (hf i j k).2) m4 m6 hc hcs r4 r6
  obtain ⟨q1, q2, q3, qo⟩ := quartic_top (Or.inl rfl) (fun h => by cases h) hq e1 e2 e3
  obtain ⟨o1, o2, o3, o4, o5⟩ := qo rfl
  obtain ⟨s, t, hs, ht, h⟩ := top_skew (rotor := .oblateSymmTop) (Or.inl rfl) hn h02 (h01 ▸ h02) (fun i j k => (hf i j k).1)
    (fun i j k => (hf i j k).2) m4 m6
  rw [quarticH_top (tau4_comm _ _ _ _) e1 e2 e3] at h
  rw [o1, o2, o3, o4, o5, q1, q2, q3]
  exact ⟨s, t, hs, ht, h, rfl⟩

example : ∃ q, Quartic.new .oblateSymmTop 3 oblB (fun _ => 1) (fun _ => 1) (topWila 1) = some q ∧
    ∃ s t, SkewGen 3 s ∧ SkewGen 5 t ∧ Transforms s t (rotorH oblB) (topData 1 oblB).H4 (topData 1 oblB).H6
      (watsonS4 1 0 2 q.dj q.djk q.dk q.sd1 q.sd2)
      (sexticH (sexticScc .oblateSymmTop 3 12 oblB (fun _ => 1) (fun _ => 1) (topWila 1) (fun _ _ _ => 0) topF3)) ∧
    watsonS4 1 0 2 q.dj q.djk q.dk q.sd1 q.sd2 = watsonS4 1 0 2 q.djw q.djkw q.dkw 0 0 := by
  obtain ⟨q, hq⟩ := Option.isSome_iff_exists.1 ((quartic_isSome .oblateSymmTop 3 oblB (fun _ => 1) (fun _ => 1)
    (topWila 1)).2 ⟨by decide, by decide⟩)
  obtain ⟨h1, h2, h3⟩ := half_sqrt_three
  exact ⟨q, hq, c96_oblate_partial 3 12 (by norm_num) oblB (fun _ => 1) (fun _ => 1) (topWila 1) (fun _ _ _ => 0) topF3
    (by norm_num [oblB]) (by norm_num [oblB]) topF3_symm q hq _ _ h1 h2 (top_mirror 1 oblB).1 (top_mirror 1 oblB).2
    (top_turned 1 oblB h3).1 ((top_turned 1 oblB h3).2 (by norm_num [oblB]))⟩

/-- C96, in part: an oblate top that is planar (with the plane of symmetry `z = 0`), for which the numbers of the axes 0 and 1 are
not exactly equal (this is not needed in exact arithmetic, where `1 / 0 = 0`, but in the code, see `c96_oblate_violated`). The
Hamiltonian needs no transformation, all quartic constants and the sextic constants of the S reduction are
its coefficients. -/
theorem c96_planar_partial (nvib nfreq : Nat) (hn : nfreq ≠ 6) (rotcon primat freq : Vec ℝ) (wila : Mat ℝ) (zmat f3 : T3 ℝ)
    (_h01 : rotcon 0 ≠ rotcon 1) (h02 : 1 / 200 < |rotcon 0 - rotcon 2|) (h12 : 1 / 200 < |rotcon 1 - rotcon 2|)
    (hf : ∀ i j k, f3 i j k = f3 j i k ∧ f3 i j k = f3 i k j) (q : Quartic ℝ)
    (hq : Quartic.new .oblateSymmTop nvib rotcon primat freq wila = some q) (c s : ℝ) (hc : c ^ 2 + s ^ 2 = 1) (hcs : c * s ≠ 0) :
    let D : RotorData := ⟨nvib, rotcon, primat, freq, fun v i j => wila v (pairIdx i j), zmat, f3⟩
    let S := Sextic.new .oblateSymmTop nvib nfreq rotcon primat freq wila zmat f3
    Mirror D.H4 → Mirror D.H6 → MirrorZ D.H4 → MirrorZ D.H6 → Turn c s D.H4 → Turn c s D.H6 →
    D.H4 = watsonS4 1 0 2 q.dj q.djk q.dk q.sd1 q.sd2 ∧ D.H4 = watsonS4 1 0 2 q.djw q.djkw q.dkw 0 0 ∧
    D.H6 = watsonS6 1 0 2 S.hj S.hjk S.hkj S.hk S.h1 S.h2 S.h3 := by
  intro D S m4 m6 z4 z6 r4 r6
  obtain ⟨⟨e1, e2, e3⟩, h4, h6, hφ⟩ := top_planar (rotor := .oblateSymmTop) (Or.inl rfl) hn h02 h12 (fun i j k => (hf i j k).1)
    (fun i j k => (hf i j k).2) m4 m6 z4 z6 hc hcs r4 r6
  obtain ⟨q1, q2, q3, qo⟩ := quartic_top (Or.inl rfl) (fun h => by cases h) hq e1 e2 e3
  obtain ⟨o1, o2, o3, o4, o5⟩ := qo rfl
  have h4' := h4.trans (quarticH_top (tau4_comm _ _ _ _) e1 e2 e3)
  rw [o1, o2, o3, o4, o5, q1, q2, q3]
  exact ⟨h4', h4', h6.trans (sextic_top (Or.inl rfl) _ _ _ _ _ _ _ _ e1 e3.symm hφ)⟩

/-- A molecule with two degenerate modes that do not change the inertia tensor but couple to one that does. -/
example : ∃ q, Quartic.new .oblateSymmTop 3 nearOblB (fun _ => 1) (fun _ => 1) flatWila = some q ∧
    let S := Sextic.new .oblateSymmTop 3 12 nearOblB (fun _ => 1) (fun _ => 1) flatWila flatZeta topF3
    flatData.H4 = watsonS4 1 0 2 q.dj q.djk q.dk q.sd1 q.sd2 ∧ flatData.H4 = watsonS4 1 0 2 q.djw q.djkw q.dkw 0 0 ∧
    flatData.H6 = watsonS6 1 0 2 S.hj S.hjk S.hkj S.hk S.h1 S.h2 S.h3 := by
  obtain ⟨q, hq⟩ := Option.isSome_iff_exists.1 ((quartic_isSome .oblateSymmTop 3 nearOblB (fun _ => 1) (fun _ => 1)
    flatWila).2 ⟨by decide, by decide⟩)
  obtain ⟨h1, h2, h3⟩ := half_sqrt_three
  obtain ⟨m4, m6, z4, z6, r4, r6⟩ := flat_symm h1
  exact ⟨q, hq, c96_planar_partial 3 12 (by norm_num) nearOblB (fun _ => 1) (fun _ => 1) flatWila flatZeta topF3
    (by norm_num [nearOblB]) (by norm_num [nearOblB]) (by norm_num [nearOblB]) topF3_symm q hq _ _ h1 h2 m4 m6 z4 z6 r4 r6⟩

open Ext in
/-- C96 is violated by oblate tops whose constants are exactly equal: with the rules of IEEE 754 for division by zero, all the
sextic constants of the S reduction are NaN, whatever the other inputs are. -/
theorem c96_oblate_violated (nvib nfreq : Nat) {rotcon : Vec Ext} {b c : ℝ} (h0 : rotcon 0 = fin b) (h1 : rotcon 1 = fin b)
    (h2 : rotcon 2 = fin c) (hbc : b ≠ c) (primat freq : Vec Ext) (wila : Mat Ext) (zmat f3 : T3 Ext) :
    let S := Sextic.new .oblateSymmTop nvib nfreq rotcon primat freq wila zmat f3
    S.hj = nan ∧ S.hjk = nan ∧ S.hkj = nan ∧ S.hk = nan ∧ S.h1 = nan ∧ S.h2 = nan ∧ S.h3 = nan := by
  intro S
  have hS : S = Sextic.new .oblateSymmTop nvib nfreq rotcon primat freq wila zmat f3 := rfl
  unfold Sextic.new at hS
  extract_lets maxcor taucpm scc dflt irep ic id t' phi t400 t220 t040 t202 t022 t004 b002 f600 f420 f240 f060 f402 f222
      f042 f204 f024 f006 asym ids rkappa bo sigma phijk ret id' b200 b020 div mu nu lamda at hS
  rw [if_neg (by decide), if_neg (by decide)] at hS
  have hk : rkappa = fin 1 := by
    have : rkappa = (Arith.lit 2.0 * rotcon 1 - rotcon 0 - rotcon 2) / (rotcon 0 - rotcon 2) := rfl
    rw [this, h0, h1, h2, ext_lit, ext_fin_mul, ext_fin_sub, ext_fin_sub, ext_fin_sub, ext_fin_div _ (sub_ne_zero.2 hbc)]
    congr 1
    rw [div_eq_one_iff_eq (sub_ne_zero.2 hbc)]
    norm_num; ring
  have hb : bo = fin 0 := by
    have : bo = (rkappa - Arith.lit 1.0) / (rkappa + Arith.lit 3.0) := rfl
    rw [this, hk, ext_lit, ext_lit, ext_fin_add, ext_fin_sub, ext_fin_div]
    · norm_num
    · norm_num
  have hs : sigma = inf false := by
    have e : sigma = if Arith.lt rkappa (Arith.lit 0.0) then -Arith.lit 999999999999.0 else Arith.lit 1.0 / bo := rfl
    rw [e, hk, hb, ext_lit, ext_lit, ext_lit]
    have l : Arith.lt (fin 1) (fin ((0.0 : ℚ) : ℝ)) = false := decide_eq_false (by norm_num)
    rw [l, if_neg (by decide)]
    show Ext.div _ _ = _
    norm_num [Ext.div]
  have hd : div = inf false := by
    have e : div = Arith.lit 2.0 * sigma * sigma + Arith.lit 27.0 / Arith.lit 16.0 := rfl
    rw [e, hs, ext_lit, ext_lit, ext_lit, ext_fin_div _ (by norm_num)]
    have : fin ((2.0 : ℚ) : ℝ) * inf false = inf false := by
      show Ext.mul _ _ = _
      norm_num [Ext.mul]
    rw [this]
    rfl
  have hm : mu = nan := by
    show (_ - _ + _) / div = nan
    rw [hd, hs]
    exact ext_div_inf (ext_add_inf (ext_sub_inf (ext_inf_mul _ _) _) _) _
  have hn : nu = nan := by
    have e : nu = Arith.lit 3.0 * mu / (Arith.lit 16.0 * sigma) + f024 / (Arith.lit 8.0 * sigma) + t004 * t022 / b020 := rfl
    rw [e, hm, ext_mul_nan, ext_nan_div, ext_nan_add, ext_nan_add]
  have hl : lamda = nan := by
    show Arith.lit 5.0 * nu / sigma + _ + _ = nan
    rw [hn, ext_mul_nan, ext_nan_div, ext_nan_add, ext_nan_add]
  rw [hS]
  refine ⟨?_, ?_, ?_, ?_, ?_, ?_, ?_⟩
  · show f600 - lamda = nan
    rw [hl, ext_sub_nan]
  · show f420 + Arith.lit 6.0 * lamda - Arith.lit 3.0 * mu = nan
    rw [hm, ext_mul_nan, ext_sub_nan]
  · show f240 - Arith.lit 5.0 * lamda + Arith.lit 10.0 * mu = nan
    rw [hm, ext_mul_nan, ext_add_nan]
  · show f060 - Arith.lit 7.0 * mu = nan
    rw [hm, ext_mul_nan, ext_sub_nan]
  · show f402 - nu = nan
    rw [hn, ext_sub_nan]
  · show f204 + lamda / Arith.lit 2.0 = nan
    rw [hl, ext_nan_div, ext_add_nan]
  · show f006 + nu = nan
    rw [hn, ext_add_nan]

open Ext in
/-- The constants of a molecule, all data finite. -/
example : (Sextic.new .oblateSymmTop 3 12 (fun i => fin (oblB i)) (fun _ => fin 1) (fun _ => fin 1) (fun i j => fin (topWila 1 i j))
    (fun _ _ _ => fin 0) (fun i j k => fin (topF3 i j k))).hj = nan :=
  (c96_oblate_violated 3 12 (rotcon := fun i => fin (oblB i)) (b := 2) (c := 1) rfl rfl rfl (by norm_num) _ _ _ _ _).1

end Verif
