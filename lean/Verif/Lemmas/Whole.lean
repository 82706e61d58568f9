import Verif.Spec.Whole
import Verif.Props.Run
import Verif.Props.Xcalc

/-!
# Lemmas on the run as a whole
-/

namespace Verif

open Finset

theorem xkkSpec_congr {R : Nat → Nat → Nat → Prop} {n : Nat} {w w' : Nat → ℝ} {F3 F3' : Nat → Nat → Nat → ℝ}
    {F4 F4' : Nat → Nat → Nat → Nat → ℝ} {k : Nat} (hk : k < n) (hw : ∀ i < n, w i = w' i)
    (h3 : ∀ i j l, i < n → j < n → l < n → F3 i j l = F3' i j l)
    (h4 : ∀ i j l m, i < n → j < n → l < n → m < n → F4 i j l m = F4' i j l m) :
    xkkSpec R n w F3 F4 k = xkkSpec R n w' F3' F4' k := by
  unfold xkkSpec
  rw [h4 k k k k hk hk hk hk]
  congr 1
  refine sum_congr rfl fun l hl => ?_
  have hl := mem_range.1 hl
  rw [h3 k k l hk hk hl, hw k hk, hw l hl]

theorem xklSpec_congr {R : Nat → Nat → Nat → Prop} {n : Nat} {w w' : Nat → ℝ} {F3 F3' : Nat → Nat → Nat → ℝ}
    {F4 F4' : Nat → Nat → Nat → Nat → ℝ} {z z' : Nat → Nat → Nat → ℝ} {B : Nat → ℝ} {k l : Nat} (hk : k < n)
    (hl : l < n) (hw : ∀ i < n, w i = w' i)
    (h3 : ∀ i j l, i < n → j < n → l < n → F3 i j l = F3' i j l)
    (h4 : ∀ i j l m, i < n → j < n → l < n → m < n → F4 i j l m = F4' i j l m)
    (hz : ∀ i j x, i < n → j < n → x < 3 → z i j x = z' i j x) :
    xklSpec R n w F3 F4 z B k l = xklSpec R n w' F3' F4' z' B k l := by
  unfold xklSpec
  rw [h4 k k l l hk hk hl hl, hw k hk, hw l hl]
  have e1 : ∑ m ∈ range n, F3 k k m * F3 l l m / (4 * w m) = ∑ m ∈ range n, F3' k k m * F3' l l m / (4 * w' m) :=
    sum_congr rfl fun m hm => by
      have hm := mem_range.1 hm
      rw [h3 k k m hk hk hm, h3 l l m hl hl hm, hw m hm]
  have e2 : ∀ f g : Nat → ℝ, (∀ m < n, f m = g m) → ∑ m ∈ range n, f m = ∑ m ∈ range n, g m :=
    fun f g h => sum_congr rfl fun m hm => h m (mem_range.1 hm)
  rw [e1]
  congr 1
  · congr 1
    refine e2 _ _ fun m hm => ?_
    rw [h3 k l m hk hl hm, hw m hm]
  · congr 1
    refine sum_congr rfl fun a ha => ?_
    rw [hz k l a hk hl (mem_range.1 ha)]

theorem applyAxes_congr {natom : Nat} {axes : Nat → Nat → ℝ} {u u' : Nat → ℝ} (h : ∀ r < 3 * natom, u r = u' r)
    (x : Nat) (hx : x < 3 * natom) : applyAxes axes u x = applyAxes axes u' x := by
  unfold applyAxes
  refine sum_congr rfl fun q hq => ?_
  rw [h _ (by have := mem_range.1 hq; omega)]

theorem form3_congr {n : Nat} {f : Nat → Nat → Nat → ℝ} {u u' v v' w w' : Nat → ℝ} (hu : ∀ r < n, u r = u' r)
    (hv : ∀ r < n, v r = v' r) (hw : ∀ r < n, w r = w' r) : form3 n f u v w = form3 n f u' v' w' := by
  unfold form3
  refine sum_congr rfl fun x hx => sum_congr rfl fun y hy => sum_congr rfl fun z hz => ?_
  rw [hu x (mem_range.1 hx), hv y (mem_range.1 hy), hw z (mem_range.1 hz)]

theorem form4_congr {n : Nat} {f : Nat → Nat → Nat → Nat → ℝ} {u u' v v' w w' s s' : Nat → ℝ}
    (hu : ∀ r < n, u r = u' r) (hv : ∀ r < n, v r = v' r) (hw : ∀ r < n, w r = w' r) (hs : ∀ r < n, s r = s' r) :
    form4 n f u v w s = form4 n f u' v' w' s' := by
  unfold form4
  refine sum_congr rfl fun x hx => sum_congr rfl fun y hy => sum_congr rfl fun z hz => sum_congr rfl fun t ht => ?_
  rw [hu x (mem_range.1 hx), hv y (mem_range.1 hy), hw z (mem_range.1 hz), hs t (mem_range.1 ht)]

theorem columnEntry_toVec {n : Nat} {m : Mat ℝ} {cols : List (List ℝ)} (h : toVec n n m = some cols) (i r : Nat)
    (hi : i < n) (hr : r < n) : columnEntry cols i r = m r i := by
  rw [toVec_square n (by omega)] at h
  obtain rfl := Option.some.inj h
  simp [columnEntry, List.getD_eq_getElem?_getD, hi, hr]

/-- The numbers a completed run of an asymmetric top works with, in terms of its input and output. -/
structure AsymParts {ι : Type} (s : SpectroIn ℝ) (o : Oracles ℝ ι) (f3x : T3 ℝ) (f4x : T4 ℝ) (out : Output ℝ ι)
    (freq : List ℝ) (F3 : T3 ℝ) (F4 : T4 ℝ) (zm : T3 ℝ) (wila : Mat ℝ) : Prop where
  w : ∀ i < s.nvib, vecOf freq i = entryOf out.harms i
  f3 : ∀ i j k, i < s.nvib → j < s.nvib → k < s.nvib →
    F3 i j k = cubicField s.n3n s.axes f3x (entryOf out.harms) out.lx i j k
  f4 : ∀ i j k l, i < s.nvib → j < s.nvib → k < s.nvib → l < s.nvib →
    F4 i j k l = quarticField s.n3n s.axes f4x (entryOf out.harms) out.lx i j k l
  z : ∀ i j x, i < s.nvib → j < s.nvib → x < 3 → zm i j x = zetaField s.natom out.lxm i j x
  a : ∀ k p q, k < s.nvib → p < 3 → q < 3 →
    wila k (pairIdx p q) = inertiaField s.natom s.pos s.weights out.lxm k p q
  rest : reststNew .asymmTop s.nvib s.i2vib zm F3 (vecOf freq) = some out.resonances
  funds : out.funds = makeFunds (vecOf freq) s.nvib (xcalc s.nvib F4 (vecOf freq) F3 zm s.rotcon out.resonances.modes
    out.resonances.fermi1 out.resonances.fermi2).1
  corr : correctedFunds o.eigen2 (vecOf freq) (xcalc s.nvib F4 (vecOf freq) F3 zm s.rotcon out.resonances.modes
    out.resonances.fermi1 out.resonances.fermi2).1 none out.resonances F3 (xcalc s.nvib F4 (vecOf freq) F3 zm s.rotcon
    out.resonances.modes out.resonances.fermi1 out.resonances.fermi2).2
    (List.replicate out.resonances.states.length (Arith.lit 0.0)) = some (out.zpt, out.corrs)
  quart : Quartic.new .asymmTop s.nvib s.rotcon s.primat (vecOf freq) wila = some out.quartic
  rots : ∃ R, alphaa s.nvib s.rotcon (alpha s.nvib s.rotcon s.primat (vecOf freq) wila zm F3 out.resonances.coriolis)
    out.resonances.modes out.resonances.states = some R ∧
    rota s.header (s.nvib + 1) s.rotcon R out.resonances.states out.quartic = some out.rots
  sext : out.sextic = Sextic.new .asymmTop s.nvib freq.length s.rotcon s.primat (vecOf freq) wila zm F3
  harms : firstFreqs freq s.nvib = some out.harms
  equil : out.rotEquil = s.rotcon

theorem wilsonA_field (nvib natom n : Nat) (hn : n = 3 * natom) (pos : Nat → Nat → ℝ) (lxm : Mat ℝ) (m : Vec ℝ)
    (cols : List (List ℝ)) (h : toVec n n lxm = some cols) (k p q : Nat) (hk : k < nvib) (hkn : k < n) (hp : p < 3)
    (hq : q < 3) : wilsonA nvib natom pos lxm m k (pairIdx p q) = inertiaField natom pos m cols k p q := by
  have e : ∀ a < natom, ∀ y < 3, columnEntry cols k (3 * a + y) = lxm (3 * a + y) k := fun a ha y hy =>
    columnEntry_toVec h _ _ hkn (by omega)
  have dec : ∀ f : Nat → ℝ, (List.range natom).foldl (fun s i => s - f i) ((0 : ℚ) : ℝ) = -∑ a ∈ range natom, f a := by
    intro f
    rw [foldl_sub_real, range_sum_list]
    simp
  have er : ∀ f : Nat → ℝ, ∑ y ∈ (range 3).erase 0, f y = f 1 + f 2 ∧ ∑ y ∈ (range 3).erase 1, f y = f 0 + f 2 ∧
      ∑ y ∈ (range 3).erase 2, f y = f 0 + f 1 := fun f =>
    ⟨sum_pair (show (1 : Nat) ≠ 2 by decide), sum_pair (show (0 : Nat) ≠ 2 by decide),
      sum_pair (show (0 : Nat) ≠ 1 by decide)⟩
  have two : ((2.0 : ℚ) : ℝ) = 2 := by norm_num
  have hpq : (p = 0 ∨ p = 1 ∨ p = 2) ∧ (q = 0 ∨ q = 1 ∨ q = 2) := ⟨by omega, by omega⟩
  unfold inertiaField wilsonA
  rw [if_pos hk]
  simp only [sumTo_real, dec, lit_real, sqrt_real, two]
  obtain ⟨rfl | rfl | rfl, rfl | rfl | rfl⟩ := hpq <;>
    simp only [show pairIdx 0 0 = 0 from rfl, show pairIdx 0 1 = 1 from rfl, show pairIdx 0 2 = 3 from rfl,
      show pairIdx 1 0 = 1 from rfl, show pairIdx 1 1 = 2 from rfl, show pairIdx 1 2 = 4 from rfl,
      show pairIdx 2 0 = 3 from rfl, show pairIdx 2 1 = 4 from rfl, show pairIdx 2 2 = 5 from rfl, if_true,
      OfNat.ofNat_ne_zero, OfNat.ofNat_ne_one, one_ne_zero, zero_ne_one, if_false, reduceCtorEq,
      show ¬ (0 = 2) by omega, show ¬ (1 = 2) by omega, show ¬ (2 = 0) by omega, show ¬ (2 = 1) by omega,
      show ¬ (3 = 2) by omega, show ¬ (3 = 5) by omega, show ¬ (3 = 1) by omega, show ¬ (4 = 2) by omega,
      show ¬ (4 = 5) by omega, show ¬ (4 = 1) by omega, show ¬ (4 = 3) by omega, show ¬ (5 = 2) by omega,
      show ¬ (1 = 5) by omega, show ¬ (1 = 0) by omega, Nat.min_def, Nat.max_def, show ¬ (1 ≤ 0) by omega,
      show ¬ (2 ≤ 0) by omega, show ¬ (2 ≤ 1) by omega, show (0 : Nat) ≤ 1 by omega, show (0 : Nat) ≤ 2 by omega,
      show 1 ≤ 2 by omega, mul_neg, neg_inj] <;>
    (refine congrArg _ (sum_congr rfl fun a ha => ?_); have ha := mem_range.1 ha) <;>
    simp only [(er _).1, (er _).2.1, (er _).2.2, e a ha 1 (by omega), e a ha 2 (by omega), Nat.add_zero,
      show columnEntry cols k (3 * a) = lxm (3 * a) k from e a ha 0 (by omega)]

/-- The same with the intermediate results named. -/
theorem asym_parts_modes {ι : Type} {s : SpectroIn ℝ} {o : Oracles ℝ ι} {fc2 : Mat ℝ} {f3x : T3 ℝ} {f4x : T4 ℝ}
    {out : Output ℝ ι} (hr : s.rotor = .asymmTop) (hn : s.n3n = 3 * s.natom) (hv : s.nvib ≤ s.n3n) (h0 : 0 < s.nvib)
    (h3 : Symm3 s.n3n f3x) (h4 : Symm4 s.n3n f4x) (h : run s o (.quartic fc2 f3x f4x) = some out) :
    ∃ m F4, runModes s o fc2 = some m ∧
      force4 s.n3n (rot4th s.n3n s.natom s.axes f4x) m.lx s.nvib (vecOf m.freq) = some F4 ∧
      toVec s.n3n s.n3n m.lxm = some out.lxm ∧ toVec s.n3n s.n3n m.lx = some out.lx ∧
      AsymParts s o f3x f4x out m.freq
        (f3Of (force3 s.n3n (rot3rd s.n3n s.natom s.axes f3x) m.lx s.nvib (vecOf m.freq))) (f4Of F4)
        (makeZmat s.nvib s.natom m.lxm) (wilsonA s.nvib s.natom s.pos m.lxm s.weights) := by
  obtain ⟨m, F4, hm, hF, hfin⟩ := run_quartic h
  unfold finish at hfin
  simp only [Option.bind_eq_bind, Option.bind_eq_some_iff] at hfin
  obtain ⟨qu, hqu, r, hrs, x, hx, hf, hhf, zc, hzc, rots, hrots, v, hvec, v', hvec', hq⟩ := hfin
  obtain rfl := Option.some.inj hq
  have hst : s.rotor.isSymTop = false := by rw [hr]; rfl
  rw [finishX, hst] at hx
  obtain rfl := Option.some.inj (show some _ = some x from hx)
  rw [finishFunds, hst] at hhf
  simp only [Bool.false_eq_true, if_false, Option.map_eq_some_iff] at hhf
  obtain ⟨hs, hhs, rfl⟩ := hhf
  have hlen : ¬ m.freq.length < s.nvib := by
    intro hc
    rw [firstFreqs, if_pos hc] at hhs
    cases hhs
  rw [firstFreqs, if_neg hlen] at hhs
  obtain rfl := Option.some.inj hhs
  have hw : ∀ i < s.nvib, vecOf m.freq i = entryOf (m.freq.take s.nvib) i := by
    intro i hi
    simp [vecOf, entryOf, List.getD_eq_getElem?_getD, hi, lit_real]
  have hlx : ∀ i < s.nvib, ∀ r < s.n3n, applyAxes s.axes (colOf m.lx i) r = applyAxes s.axes (columnEntry v' i) r := by
    intro i hi r hr
    rw [hn] at hr
    refine applyAxes_congr (natom := s.natom) (fun r hr => ?_) r hr
    exact (columnEntry_toVec hvec' _ _ (by omega) (by omega)).symm
  refine ⟨m, F4, hm, hF, hvec, hvec', ?_⟩
  refine ⟨hw, ?_, ?_, ?_, ?_, ?_, rfl, ?_, ?_, ?_, by rw [← hr], by rw [firstFreqs, if_neg hlen], rfl⟩
  · intro i j k hi hj hk
    have hsym : Symm3 s.n3n (rot3rd s.n3n s.natom s.axes f3x) := by
      rw [hn] at h3 ⊢
      exact c08_symmetric _ _ _ h3
    rw [f3Of, (c13_contraction _ _ _ _ _ hsym hv).2 i j k hi hj hk, Option.getD_some, cubicField, hw i hi, hw j hj,
      hw k hk]
    congr 1
    rw [show form3 s.n3n (rot3rd s.n3n s.natom s.axes f3x) (colOf m.lx i) (colOf m.lx j) (colOf m.lx k) =
      form3 s.n3n f3x (applyAxes s.axes (colOf m.lx i)) (applyAxes s.axes (colOf m.lx j))
        (applyAxes s.axes (colOf m.lx k)) by rw [hn]; exact c08_form ..]
    exact form3_congr (hlx i hi) (hlx j hj) (hlx k hk)
  · intro i j k l hi hj hk hl
    have hsym : Symm4 s.n3n (rot4th s.n3n s.natom s.axes f4x) := by
      rw [hn] at h4 ⊢
      exact c09_symmetric _ _ _ h4
    obtain ⟨t, ht, -, hg⟩ := c14_contraction s.n3n s.nvib _ m.lx (vecOf m.freq) hsym hv h0
    obtain rfl : t = F4 := Option.some.inj (ht.symm.trans hF)
    rw [f4Of, hg i j k l hi hj hk hl, Option.getD_some, quarticField, hw i hi, hw j hj, hw k hk, hw l hl]
    congr 1
    rw [show form4 s.n3n (rot4th s.n3n s.natom s.axes f4x) (colOf m.lx i) (colOf m.lx j) (colOf m.lx k) (colOf m.lx l) =
      form4 s.n3n f4x (applyAxes s.axes (colOf m.lx i)) (applyAxes s.axes (colOf m.lx j))
        (applyAxes s.axes (colOf m.lx k)) (applyAxes s.axes (colOf m.lx l)) by rw [hn]; exact c09_form ..]
    exact form4_congr (hlx i hi) (hlx j hj) (hlx k hk) (hlx l hl)
  · intro i j x hi hj hx
    rw [c15_angular _ _ _ _ _ _ hi hj hx, zetaField]
    unfold angularForm
    refine sum_congr rfl fun a ha => ?_
    have ha := mem_range.1 ha
    have e : ∀ k < s.nvib, ∀ y < 3, columnEntry v k (3 * a + y) = colOf m.lxm k (3 * a + y) := fun k hk y hy =>
      columnEntry_toVec hvec _ _ (by omega) (by omega)
    rw [e i hi _ (Nat.mod_lt _ (by omega)), e i hi _ (Nat.mod_lt _ (by omega)), e j hj _ (Nat.mod_lt _ (by omega)),
      e j hj _ (Nat.mod_lt _ (by omega))]
  · intro k p q hk hp hq
    exact wilsonA_field _ _ _ hn _ _ _ _ hvec _ _ _ hk (by omega) hp hq
  · rw [← hr]; exact hrs
  · exact hzc
  · rw [← hr]; exact hqu
  · rw [finishRots, hst, hr] at hrots
    simp only [Bool.false_or, reduceCtorEq, beq_iff_eq, if_false, Option.bind_eq_bind, Option.bind_eq_some_iff] at hrots
    exact hrots

theorem asym_parts {ι : Type} {s : SpectroIn ℝ} {o : Oracles ℝ ι} {fc2 : Mat ℝ} {f3x : T3 ℝ} {f4x : T4 ℝ}
    {out : Output ℝ ι} (hr : s.rotor = .asymmTop) (hn : s.n3n = 3 * s.natom) (hv : s.nvib ≤ s.n3n) (h0 : 0 < s.nvib)
    (h3 : Symm3 s.n3n f3x) (h4 : Symm4 s.n3n f4x) (h : run s o (.quartic fc2 f3x f4x) = some out) :
    ∃ freq F3 F4 zm wila, AsymParts s o f3x f4x out freq F3 F4 zm wila := by
  obtain ⟨m, F4, -, -, -, -, P⟩ := asym_parts_modes hr hn hv h0 h3 h4 h
  exact ⟨_, _, _, _, _, P⟩

end Verif
