import Verif.Lemmas.FiniteRun
import Verif.Props.SymRun

/-!
# Infinities and NaN in the run of an asymmetric top (C101)
-/

namespace Verif

open Ext

/-! ## Results that are numbers -/

/-- C101: where no two frequencies are equal, the exact Fermi resonances are strong and not shadowed and one combination of
the rotational constants is not zero, a run with the rules of IEEE 754 for infinities and NaN completes with the numbers of
the run with real numbers: all results are finite. Missing: the cases left out, see the theorems below. -/
theorem c101_finite_partial {ι : Type} (s : SpectroIn ℝ) (o : Oracles ℝ ι) (o' : Oracles Ext ι) (ho : o'.Agree o)
    (hr : s.rotor = .asymmTop) (hn : s.n3n = 3 * s.natom) (hw : ∀ i < s.natom, 0 < s.weights i)
    (hp : ∀ i < 3, s.primat i ≠ 0) (h01 : s.rotcon 1 < s.rotcon 0) (h12 : s.rotcon 2 < s.rotcon 1) (h2 : 0 < s.rotcon 2)
    (fc2 : Mat ℝ) (f3x : T3 ℝ) (f4x : T4 ℝ) (m : ModesOut ℝ ι) (hm : runModes s o fc2 = some m)
    (hg : NoZeroGap s.nvib (vecOf m.freq)
      (f3Of (force3 s.n3n (rot3rd s.n3n s.natom s.axes f3x) m.lx s.nvib (vecOf m.freq))))
    (out : Output ℝ ι) (h : run s o (.quartic fc2 f3x f4x) = some out)
    (hb : s.rotcon 0 - (s.rotcon 1 + s.rotcon 2) / 2 + 10 * out.quartic.r6 ≠ 0) :
    run s.toExt o' (Derivative.toExt (.quartic fc2 f3x f4x)) = some out.toExt :=
  run_fin ho hr hn hw hp h01 h12 h2 fc2 f3x f4x hm hg h hb

/-- C101: the same with conditions on the reported harmonic frequencies only: positive, different, no exact resonance. -/
theorem c101_no_resonance_partial {ι : Type} (s : SpectroIn ℝ) (o : Oracles ℝ ι) (o' : Oracles Ext ι) (ho : o'.Agree o)
    (hr : s.rotor = .asymmTop) (hn : s.n3n = 3 * s.natom) (hw : ∀ i < s.natom, 0 < s.weights i)
    (hp : ∀ i < 3, s.primat i ≠ 0) (h01 : s.rotcon 1 < s.rotcon 0) (h12 : s.rotcon 2 < s.rotcon 1) (h2 : 0 < s.rotcon 2)
    (fc2 : Mat ℝ) (f3x : T3 ℝ) (f4x : T4 ℝ) (out : Output ℝ ι) (h : run s o (.quartic fc2 f3x f4x) = some out)
    (hpos : ∀ a ∈ out.harms, 0 < a) (hdesc : out.harms.Pairwise fun a b => b < a)
    (hres : ∀ a ∈ out.harms, ∀ b ∈ out.harms, ∀ c ∈ out.harms, a + b ≠ c)
    (hb : s.rotcon 0 - (s.rotcon 1 + s.rotcon 2) / 2 + 10 * out.quartic.r6 ≠ 0) :
    run s.toExt o' (Derivative.toExt (.quartic fc2 f3x f4x)) = some out.toExt := by
  obtain ⟨m, F4, hm, hF4, hfin⟩ := run_quartic h
  obtain ⟨r, x, hf, zc, v, v', -, hx, hhf, -, -, -, hh, -⟩ := finish_parts hfin
  unfold finishFunds at hhf
  rw [hr] at hhf
  simp only [Rotor.isSymTop, Bool.false_eq_true, if_false, Option.map_eq_some_iff] at hhf
  obtain ⟨ha, hha, rfl⟩ := hhf
  unfold firstFreqs at hha
  split_ifs at hha with hlen
  obtain rfl := Option.some.inj hha
  dsimp only at hh
  rw [hh] at hpos hdesc hres
  have val : ∀ i < s.nvib, ∃ hi : i < (m.freq.take s.nvib).length, vecOf m.freq i = (m.freq.take s.nvib)[i] := by
    intro i hi
    have l1 : i < (m.freq.take s.nvib).length := by rw [List.length_take]; omega
    refine ⟨l1, ?_⟩
    rw [List.getElem_take]
    unfold vecOf
    rw [List.getD_eq_getElem?_getD, List.getElem?_eq_getElem (by omega)]
    rfl
  have mem : ∀ i < s.nvib, vecOf m.freq i ∈ m.freq.take s.nvib := by
    intro i hi
    obtain ⟨l1, e⟩ := val i hi
    rw [e]
    exact List.getElem_mem l1
  refine c101_finite_partial s o o' ho hr hn hw hp h01 h12 h2 fc2 f3x f4x m hm ⟨?_, ?_, ?_, ?_⟩ out h hb
  · exact fun i hi => hpos _ (mem i hi)
  · intro i j hij hj
    obtain ⟨l1, e1⟩ := val i (by omega)
    obtain ⟨l2, e2⟩ := val j hj
    rw [e1, e2]
    exact List.pairwise_iff_getElem.1 hdesc i j l1 l2 hij
  · intro k l hk hl e
    exact absurd (by rw [← e]; ring) (hres _ (mem k hk) _ (mem k hk) _ (mem l hl))
  · intro i j k hk hj hi e
    exact absurd e (hres _ (mem i hi) _ (mem j (by omega)) _ (mem k (by omega)))

/-! The hypotheses are met: -/

/-- The number, or zero for an infinity or NaN. -/
noncomputable def Ext.toNumber : Ext → ℝ
  | fin x => x
  | _ => 0

/-- For every eigensolver and irrep search over the real numbers there are ones that agree with them. -/
theorem agree_exists {ι : Type} (o : Oracles ℝ ι) : ∃ o' : Oracles Ext ι, o'.Agree o :=
  ⟨{ eigen := fun m => ((o.eigen fun i j => (m i j).toNumber).1.map fin,
      fun i j => fin ((o.eigen fun i j => (m i j).toNumber).2 i j))
     eigen2 := fun p v q => ((o.eigen2 p.toNumber v.toNumber q.toNumber).1.map fin,
      fun i j => fin ((o.eigen2 p.toNumber v.toNumber q.toNumber).2 i j))
     fuel := o.fuel
     irrepOf := fun v e => o.irrepOf (fun i => (v i).toNumber) e.toNumber
     irrepA := o.irrepA },
    ⟨fun _ => rfl, fun _ _ _ => rfl, fun _ _ _ => rfl, fun _ _ _ _ _ => rfl, rfl, fun _ _ => rfl, rfl⟩⟩

/-- Nine wavenumbers in steps of 100. -/
noncomputable def stepLevels : Nat → ℝ := fun i => if i < 9 then 2000 - 100 * i else 0

/-- A run of three atoms whose vibrations are at 2000, 1900 and 1800. -/
example : ∃ (o' : Oracles Ext Nat) (out : Output ℝ Nat), o'.Agree (diagOracles 9 id) ∧
    run exampleTop (diagOracles 9 id) (.quartic (diagHessian stepLevels) (fun _ _ _ => 1) fun _ _ _ _ => 1) = some out ∧
    out.harms = [2000, 1900, 1800] ∧
    run exampleTop.toExt o' (Derivative.toExt (.quartic (diagHessian stepLevels) (fun _ _ _ => 1) fun _ _ _ _ => 1)) =
      some out.toExt := by
  obtain ⟨o', ho⟩ := agree_exists (diagOracles 9 id)
  obtain ⟨out, h⟩ := Option.isSome_iff_exists.1 (c74_completes exampleTop (diagOracles 9 id) (diagHessian stepLevels)
    (fun _ _ _ => 1) (fun _ _ _ _ => 1) rfl (by decide) (by decide) rfl (by decide) (by simp [exampleTop, diagOracles])
    (by simp [diagOracles]) le_rfl)
  have hraw := diag_raw exampleTop stepLevels id rfl rfl rfl (fun i hi => hi)
    (fun i => by
      unfold stepLevels
      split_ifs with c
      · have : (i : ℝ) ≤ 9 := by exact_mod_cast c.le
        linarith
      · exact le_rfl)
    (fun i j hij hj => by
      have hj' : j < 9 := hj
      unfold stepLevels
      rw [if_pos (show id j < 9 from hj'), if_pos (show id i < 9 by simp only [id]; omega)]
      have : (i : ℝ) ≤ j := by exact_mod_cast hij.le
      simp only [id]
      linarith)
  obtain ⟨m, F4, hm, hF4, hfin⟩ := run_quartic h
  have hfreq : m.freq = (List.range 9).map fun i => stepLevels i := by
    refine Eq.trans ?_ hraw.1
    unfold runModes runAlign at hm
    rw [show exampleTop.rotor = .asymmTop from rfl] at hm
    simp only [Rotor.isSymTop, Bool.false_eq_true, if_false, Option.bind_eq_bind, Option.bind_some,
      Option.bind_eq_some_iff, Option.pure_def, Option.some.injEq] at hm
    obtain ⟨ir, -, rfl⟩ := hm
    rfl
  have hlxm : ∀ r, ∀ c < 3, m.lxm r c = if r = c then 1 else 0 := by
    intro r c hc
    have := hraw.2 r c (show c < 9 by omega)
    simp only [id] at this
    rw [← this]
    unfold runModes runAlign at hm
    rw [show exampleTop.rotor = .asymmTop from rfl] at hm
    simp only [Rotor.isSymTop, Bool.false_eq_true, if_false, Option.bind_eq_bind, Option.bind_some,
      Option.bind_eq_some_iff, Option.pure_def, Option.some.injEq] at hm
    obtain ⟨ir, -, rfl⟩ := hm
    rfl
  have hharms : out.harms = [2000, 1900, 1800] := by
    obtain ⟨r, x, hf, zc, v, v', -, hx, hhf, -, -, -, hh, -⟩ := finish_parts hfin
    unfold finishFunds firstFreqs at hhf
    rw [show exampleTop.rotor = .asymmTop from rfl, hfreq] at hhf
    simp only [Rotor.isSymTop, Bool.false_eq_true, if_false, List.length_map, List.length_range] at hhf
    rw [if_neg (by decide), Option.map_some] at hhf
    rw [hh, ← Option.some.inj hhf]
    norm_num [exampleTop, stepLevels, List.range_succ]
  have hr6 : out.quartic.r6 = 0 := by
    unfold finish at hfin
    simp only [Option.bind_eq_bind, Option.bind_eq_some_iff] at hfin
    obtain ⟨qu, hqu, r, -, x, -, hf, -, zc, -, rots, -, v, -, v', -, hq⟩ := hfin
    obtain rfl := Option.some.inj hq
    have hz : wilsonA exampleTop.nvib exampleTop.natom exampleTop.pos m.lxm exampleTop.weights = fun _ _ => 0 := by
      funext k c
      unfold wilsonA
      by_cases hk : k < exampleTop.nvib
      · have hk3 : k < 3 := hk
        rw [if_pos hk]
        have h0 : ((0 : ℕ) : ℝ) = 0 := Nat.cast_zero
        simp only [exampleTop, sumTo_real, List.range_succ, List.range_zero, Finset.sum_range_succ, Finset.sum_range_zero,
          List.nil_append, List.cons_append, List.foldl_cons, List.foldl_nil, hlxm _ _ hk3]
        interval_cases k <;> norm_num [lit_real]
      · rw [if_neg hk]
        simp [lit_real]
    rw [hz] at hqu
    rw [show exampleTop.rotor = .asymmTop from rfl] at hqu
    unfold Quartic.new at hqu
    simp [quarticRep, quarticAsym, Rotor.isSymTop, Rotor.spectroLinear] at hqu
    rw [← hqu]
    simp [quarticT, tauPrime, makeTau, princCart, IPTOC, Mat.set, lit_real, List.range_succ, sumTo_real]
  refine ⟨o', out, ho, h, hharms, ?_⟩
  refine c101_no_resonance_partial exampleTop _ o' ho rfl rfl (fun _ _ => one_pos) ?_ ?_ ?_ ?_ _ _ _ out h ?_ ?_ ?_ ?_
  · intro i _
    exact (by positivity : (0 : ℝ) < (i : ℝ) + 1).ne'
  · norm_num [exampleTop]
  · norm_num [exampleTop]
  · norm_num [exampleTop]
  · rw [hharms]; norm_num
  · rw [hharms]; norm_num
  · rw [hharms]; norm_num
  · rw [hr6]; norm_num [exampleTop]

/-- An exact resonance of type 1 (twice 300 is 600) and one of type 2 (100 and 500 add up to 600) that are strong. -/
example : NoZeroGap 4 (fun i => [600, 500, 300, 100].getD i 0) fun i j k => if k = 0 then 20 else 0 := by
  refine ⟨?_, ?_, ?_, ?_⟩
  · intro i hi; interval_cases i <;> norm_num
  · intro i j hij hj; interval_cases j <;> interval_cases i <;> norm_num
  · intro k l hk hl e
    have : k = 2 ∧ l = 0 := by interval_cases k <;> interval_cases l <;> first | (exfalso; norm_num at e; done) | norm_num
    obtain ⟨rfl, rfl⟩ := this
    exact ⟨by norm_num, fun l' hl' hne _ => by rw [if_neg hne]; norm_num⟩
  · intro i j k hk hj hi e
    have : k = 0 := by interval_cases i <;> interval_cases j <;> interval_cases k <;> first | (exfalso; norm_num at e; done) | norm_num
    rw [if_pos this]; norm_num

/-! ## Results that are not -/

/-- Not a number. -/
theorem not_number_iff {e : Ext} : ¬e.Number ↔ e = nan ∨ ∃ b, e = inf b := by
  unfold Ext.Number
  cases e with
  | fin x => simp
  | inf b => simp
  | nan => simp

theorem bad_add {a : Ext} (h : ¬a.Number) (b : Ext) : ¬(a + b).Number :=
  not_number_iff.2 (ext_add_inf (not_number_iff.1 h) b)

theorem bad_sub {a : Ext} (h : ¬a.Number) (b : Ext) : ¬(a - b).Number :=
  not_number_iff.2 (ext_sub_inf (not_number_iff.1 h) b)

theorem ext_add_comm (a b : Ext) : a + b = b + a := by
  show Ext.add a b = Ext.add b a
  cases a <;> cases b <;> simp [Ext.add]
  · exact add_comm _ _
  · split_ifs with h1 h2 h2
    · exact congrArg _ h1
    · exact absurd h1.symm h2
    · exact absurd h2.symm h1
    · rfl

theorem bad_add' {b : Ext} (a : Ext) (h : ¬b.Number) : ¬(a + b).Number := by
  rw [ext_add_comm]; exact bad_add h a

theorem bad_neg {a : Ext} (h : ¬a.Number) : ¬(-a).Number := by
  rcases not_number_iff.1 h with rfl | ⟨b, rfl⟩
  · exact not_number_iff.2 (Or.inl rfl)
  · exact not_number_iff.2 (Or.inr ⟨_, rfl⟩)

theorem bad_sub' {b : Ext} (a : Ext) (h : ¬b.Number) : ¬(a - b).Number := bad_add' a (bad_neg h)

theorem bad_mul {a : Ext} (h : ¬a.Number) (b : Ext) : ¬(a * b).Number := by
  rcases not_number_iff.1 h with rfl | ⟨c, rfl⟩
  · rw [ext_nan_mul]; exact not_number_iff.2 (Or.inl rfl)
  · exact not_number_iff.2 (ext_inf_mul c b)

theorem bad_mul' {b : Ext} (a : Ext) (h : ¬b.Number) : ¬(a * b).Number := by
  rcases not_number_iff.1 h with rfl | ⟨c, rfl⟩
  · rw [ext_mul_nan]; exact not_number_iff.2 (Or.inl rfl)
  · refine not_number_iff.2 ?_
    cases a with
    | fin x =>
      by_cases hx : x = 0
      · exact Or.inl (if_pos hx)
      · exact Or.inr ⟨_, if_neg hx⟩
    | inf d => exact Or.inr ⟨_, rfl⟩
    | nan => exact Or.inl rfl

/-- A quotient with denominator zero is never a number. -/
theorem bad_div_zero (a : Ext) : ¬(a / fin 0).Number := by
  refine not_number_iff.2 ?_
  cases a with
  | fin x =>
    by_cases hx : x = 0
    · exact Or.inl ((if_pos rfl).trans (if_pos hx))
    · exact Or.inr ⟨_, (if_pos rfl).trans (if_neg hx)⟩
  | inf d => exact Or.inr ⟨_, rfl⟩
  | nan => exact Or.inl rfl

theorem four_sq {a b : ℝ} (e : 2 * a = b) : (Arith.lit 4.0 * sq a - sq b : ℝ) = 0 := by
  rw [lit_real, ← e, show ((4.0 : ℚ) : ℝ) = 4 by norm_num]
  unfold sq
  ring

theorem bad_foldl {β : Type} {F : Ext → β → Ext} (keep : ∀ s b, ¬s.Number → ¬(F s b).Number) {l : List β} {b : β}
    (hb : b ∈ l) (make : ∀ s, ¬(F s b).Number) (s : Ext) : ¬(l.foldl F s).Number := by
  have stay : ∀ (l : List β) s, ¬s.Number → ¬(l.foldl F s).Number := by
    intro l
    induction l with
    | nil => exact fun s h => h
    | cons c l ih => exact fun s h => ih _ (keep s c h)
  induction l generalizing s with
  | nil => cases hb
  | cons c l ih =>
    rw [List.foldl_cons]
    rcases List.mem_cons.1 hb with rfl | hb
    · exact stay l _ (make s)
    · exact ih hb _

theorem bad_funds {n : Nat} {w : Vec Ext} {x : Mat Ext} {k j : Nat} (hk : k < n) (hj : j < n) (h : ¬(x k j).Number) :
    ∃ e, (makeFunds w n x)[k]? = some e ∧ ¬e.Number := by
  unfold makeFunds
  refine ⟨_, by rw [List.getElem?_map, List.getElem?_range hk]; rfl, ?_⟩
  by_cases hjk : j = k
  · subst hjk
    have keep : ∀ (l : List Nat) (s : Ext), ¬s.Number →
        ¬(l.foldl (fun val i => if i ≠ j then val + Arith.lit 0.5 * x j i else val) s).Number := by
      intro l
      induction l with
      | nil => exact fun s h => h
      | cons c l ih =>
        intro s hs
        rw [List.foldl_cons]
        refine ih _ ?_
        split_ifs
        · exact bad_add hs _
        · exact hs
    exact keep _ _ (bad_add' _ (bad_mul' _ h))
  · refine bad_foldl (fun s b hs => ?_) (List.mem_range.2 hj) (fun s => ?_) _
    · split_ifs
      · exact bad_add hs _
      · exact hs
    · rw [if_pos hjk]
      exact bad_add' _ (bad_mul' _ h)

/-- C101, where the code violates it: if twice a frequency is exactly another one and the cubic constant stays below the
tolerance (for instance zero by symmetry), the fundamental of the first mode is not a number. -/
theorem c101_weak_type1_violated (n i2vib : Nat) (w : Vec ℝ) (f3 z : T3 ℝ) (f4 : T4 ℝ) (rc : Vec ℝ) (r : Restst)
    (hr : reststNew .asymmTop n i2vib z f3 w = some r) (k l : Nat) (hk : k < n) (hl : l < n) (e : 2 * w k = w l)
    (hf : |f3 k k l| < 10) :
    ∃ v, (makeFunds (fun i => fin (w i)) n (xcalc n (fun i j k l => fin (f4 i j k l)) (fun i => fin (w i))
      (fun i j k => fin (f3 i j k)) (fun i j k => fin (z i j k)) (fun i => fin (rc i)) r.modes r.fermi1 r.fermi2).1)[k]? =
        some v ∧ ¬v.Number := by
  obtain ⟨-, -, -, m1, m2⟩ := asym_lists hr
  have hc : (makeFermiChecks r.fermi1 r.fermi2).ifrmchk k k l = 0 := by
    by_contra hc
    rcases (chk_iff _ _ _ _ _).1 hc with ⟨-, hc⟩ | hc | hc
    · exact absurd ((m1 k l).1 hc).2.2.2 (not_le.2 hf)
    · have := (m2 _ _ _).1 hc; omega
    · have := (m2 _ _ _).1 hc; omega
  refine bad_funds hk hk ?_
  show ¬Ext.Number (xcalcMat _ _ _ _ _ _ _ k k)
  rw [xcalcMat_diag _ _ _ _ _ _ _ _ hk]
  unfold xDiag
  refine bad_add' _ (bad_foldl (fun s b hs => ?_) (List.mem_range.2 hl) (fun s => ?_) _)
  · dsimp only
    split_ifs <;> exact bad_sub hs _
  · dsimp only
    rw [if_neg (not_not.2 hc)]
    refine bad_sub' _ ?_
    have d : (Arith.lit 16.0 * fin (w l) * (Arith.lit 4.0 * sq (fin (w k)) - sq (fin (w l))) : Ext) = fin 0 := by
      have : Is (Arith.lit 16.0 * fin (w l) * (Arith.lit 4.0 * sq (fin (w k)) - sq (fin (w l))))
          (Arith.lit 16.0 * w l * (Arith.lit 4.0 * sq (w k) - sq (w l))) := by is_fin [Is.fin]
      rw [this, four_sq e, mul_zero]
    rw [d]
    exact bad_div_zero _

/-- Frequencies 1000 and 500 without cubic constants. -/
example : ∃ r v, reststNew .asymmTop 2 3 (fun _ _ _ => 0) (fun _ _ _ => 0) (fun i => if i = 0 then (1000 : ℝ) else 500) =
      some r ∧
    (makeFunds (fun i => fin (if i = 0 then (1000 : ℝ) else 500)) 2
      (xcalc 2 (fun _ _ _ _ => fin 0) (fun i => fin (if i = 0 then (1000 : ℝ) else 500))
        (fun _ _ _ => fin 0) (fun _ _ _ => fin 0) (fun _ => fin 1) r.modes r.fermi1 r.fermi2).1)[1]? = some v ∧
    ¬v.Number := by
  obtain ⟨r, hr⟩ := Option.isSome_iff_exists.1 (c21_asymmetric 2 (fun _ _ _ => 0) (fun _ _ _ => 0)
    (fun i => if i = 0 then (1000 : ℝ) else 500))
  obtain ⟨v, hv, hn⟩ := c101_weak_type1_violated 2 3 _ _ _ (fun _ _ _ _ => 0) (fun _ => 1) r hr 1 0 (by omega) (by omega)
    (by norm_num) (by norm_num)
  exact ⟨r, v, hr, hv, hn⟩

/-- C101, where the code violates it: if two frequencies add up to a third and the cubic constant stays below the tolerance,
the fundamentals of the first two modes are not numbers. -/
theorem c101_weak_type2_violated (n i2vib : Nat) (w : Vec ℝ) (f3 z : T3 ℝ) (f4 : T4 ℝ) (rc : Vec ℝ) (r : Restst)
    (hr : reststNew .asymmTop n i2vib z f3 w = some r) (i j k : Nat) (hk : k < j) (hj : j < i) (hi : i < n)
    (e : w i + w j = w k) (hf : |f3 i j k| < 10) (a : Nat) (ha : a = i ∨ a = j) :
    ∃ v, (makeFunds (fun i => fin (w i)) n (xcalc n (fun i j k l => fin (f4 i j k l)) (fun i => fin (w i))
      (fun i j k => fin (f3 i j k)) (fun i j k => fin (z i j k)) (fun i => fin (rc i)) r.modes r.fermi1 r.fermi2).1)[a]? =
        some v ∧ ¬v.Number := by
  obtain ⟨-, -, -, m1, m2⟩ := asym_lists hr
  have no : ∀ a b c, (a ≠ b) → ¬(a = i ∧ b = j ∧ c = k) → (c < a → c < b → False) →
      (makeFermiChecks r.fermi1 r.fermi2).ifrmchk a b c = 0 := by
    intro a b c hab h1 h2
    by_contra hc
    rcases (chk_iff _ _ _ _ _).1 hc with ⟨h, -⟩ | hc | hc
    · exact hab h
    · have := (m2 _ _ _).1 hc; exact h2 (by omega) (by omega)
    · have := (m2 _ _ _).1 hc; exact h2 (by omega) (by omega)
  have hc1 : (makeFermiChecks r.fermi1 r.fermi2).ifrmchk i j k = 0 := by
    by_contra hc
    rcases (chk_iff _ _ _ _ _).1 hc with ⟨h, -⟩ | hc | hc
    · omega
    · exact absurd ((m2 _ _ _).1 hc).2.2.2.1 (not_le.2 hf)
    · have := (m2 _ _ _).1 hc; omega
  have hc2 := no j k i (by omega) (by omega) (by omega)
  have hc3 := no i k j (by omega) (by omega) (by omega)
  have bad : ¬(xOff n (fun i j k l => fin (f4 i j k l)) (fun i => fin (w i))
      (fun i j k => fin (f3 i j k)) (fun i j k => fin (z i j k)) (fun i => fin (rc i))
      (makeFermiChecks r.fermi1 r.fermi2).ifrmchk i j).Number := by
    unfold xOff
    dsimp only
    refine bad_add (bad_add' _ ?_) _
    unfold sumTo
    refine bad_foldl (fun s b hs => ?_) (List.mem_range.2 (show k < n by omega)) (fun s => ?_) _
    · exact bad_add hs _
    refine bad_add' _ (bad_mul' _ ?_)
    unfold xFac
    dsimp only [dens]
    rw [if_neg (fun h => h.1 hc2), if_neg (fun h => h.1 hc3), if_neg (not_not.2 hc1), if_neg (not_not.2 hc2),
      if_neg (not_not.2 hc3)]
    have d : (-(fin (w i) + fin (w j) + fin (w k)) * (fin (w i) - fin (w j) + fin (w k)) *
        (fin (w i) + fin (w j) - fin (w k)) * (-fin (w i) + fin (w j) + fin (w k)) : Ext) = fin 0 := by
      have : Is (-(fin (w i) + fin (w j) + fin (w k)) * (fin (w i) - fin (w j) + fin (w k)) *
          (fin (w i) + fin (w j) - fin (w k)) * (-fin (w i) + fin (w j) + fin (w k)))
          (-(w i + w j + w k) * (w i - w j + w k) * (w i + w j - w k) * (-w i + w j + w k)) := by is_fin [Is.fin]
      rw [this, e, sub_self, mul_zero, zero_mul]
    rw [d]
    exact bad_div_zero _
  obtain ⟨o1, o2⟩ := xcalcMat_off n (fun i j k l => fin (f4 i j k l)) (fun i => fin (w i))
      (fun i j k => fin (f3 i j k)) (fun i j k => fin (z i j k)) (fun i => fin (rc i))
      (makeFermiChecks r.fermi1 r.fermi2).ifrmchk i j hj hi
  rcases ha with rfl | rfl
  · refine bad_funds hi (show j < n by omega) ?_
    show ¬Ext.Number (xcalcMat _ _ _ _ _ _ _ _ _)
    rw [o1]
    exact bad
  · refine bad_funds (show a < n by omega) hi ?_
    show ¬Ext.Number (xcalcMat _ _ _ _ _ _ _ _ _)
    rw [o2]
    exact bad

/-- Frequencies 1000, 600 and 400 without cubic constants. -/
example : ∃ r v, reststNew .asymmTop 3 6 (fun _ _ _ => 0) (fun _ _ _ => 0)
      (fun i => if i = 0 then (1000 : ℝ) else if i = 1 then 600 else 400) = some r ∧
    (makeFunds (fun i => fin (if i = 0 then (1000 : ℝ) else if i = 1 then 600 else 400)) 3
      (xcalc 3 (fun _ _ _ _ => fin 0) (fun i => fin (if i = 0 then (1000 : ℝ) else if i = 1 then 600 else 400))
        (fun _ _ _ => fin 0) (fun _ _ _ => fin 0) (fun _ => fin 1) r.modes r.fermi1 r.fermi2).1)[2]? = some v ∧
    ¬v.Number := by
  obtain ⟨r, hr⟩ := Option.isSome_iff_exists.1 (c21_asymmetric 3 (fun _ _ _ => 0) (fun _ _ _ => 0)
    (fun i => if i = 0 then (1000 : ℝ) else if i = 1 then 600 else 400))
  obtain ⟨v, hv, hn⟩ := c101_weak_type2_violated 3 6 _ _ _ (fun _ _ _ _ => 0) (fun _ => 1) r hr 2 1 0 (by omega) (by omega)
    (by omega) (by norm_num) (by norm_num) 2 (Or.inl rfl)
  exact ⟨r, v, hr, hv, hn⟩

/-- C101, where the code violates it: if twice a frequency is exactly another one, and a different resonance of the same
overtone comes later in the list, the zero-point constant is not a number. -/
theorem c101_shadowed_violated (n i2vib : Nat) (w : Vec ℝ) (f3 z : T3 ℝ) (f4 : T4 ℝ) (rc : Vec ℝ) (r : Restst)
    (hr : reststNew .asymmTop n i2vib z f3 w = some r) (k l l' : Nat) (hk : k < n) (hl : l < n) (hkl : k ≠ l)
    (e : 2 * w k = w l) (hll : l < l') (hl' : l' < n) (hnear : |2 * w k - w l'| ≤ 200) (hf : 10 ≤ |f3 k k l'|) :
    ¬(xcalc n (fun i j k l => fin (f4 i j k l)) (fun i => fin (w i)) (fun i j k => fin (f3 i j k))
      (fun i j k => fin (z i j k)) (fun i => fin (rc i)) r.modes r.fermi1 r.fermi2).2.Number := by
  obtain ⟨-, hp1, -, m1, -⟩ := asym_lists hr
  have order : r.fermi1.Pairwise fun a b => a.i = b.i → a.j ≤ b.j := by
    obtain ⟨t, -, hm, -, -, -, -, h1, -⟩ := restst_parts hr
    rw [hm] at h1
    unfold fermi1 at h1
    rw [← Option.some.inj h1, partition_asym _ rfl]
    have test : ∀ i j, ∀ f ∈ ferm1Test w i j f3, f = ⟨i, j⟩ := by
      intro i j f hf
      unfold ferm1Test at hf
      split_ifs at hf
      · exact List.mem_singleton.1 hf
      · cases hf
    have up : (List.range n).Pairwise (· < ·) := List.pairwise_lt_range
    refine List.pairwise_flatMap.2 ⟨fun i _ => List.pairwise_flatMap.2 ⟨fun j _ => ?_, ?_⟩, ?_⟩
    · unfold ferm1Test
      split_ifs <;> simp
    · refine up.imp fun {a b} hab x hx y hy _ => ?_
      rw [test _ _ x hx, test _ _ y hy]
      exact hab.le
    · refine up.imp fun {a b} hab x hx y hy h => ?_
      simp only [List.mem_flatMap] at hx hy
      obtain ⟨c, -, hx⟩ := hx
      obtain ⟨d, -, hy⟩ := hy
      rw [test _ _ x hx, test _ _ y hy] at h
      exact absurd h hab.ne
  have hlast : (makeFermiChecks r.fermi1 r.fermi2).ifrm1 k ≠ some l := by
    intro h
    obtain ⟨l₁, l₂, hs, hno⟩ := (c27_type1 _ _ _ _).1 h
    have hmem := (m1 k l').2 ⟨hk, hl', hnear, hf⟩
    rw [hs] at hmem order
    rcases List.mem_append.1 hmem with c | c
    · have := (List.pairwise_append.1 order).2.2 _ c _ List.mem_cons_self rfl
      dsimp only at this
      omega
    · rcases List.mem_cons.1 c with c | c
      · injection c with _ c; omega
      · exact hno _ c rfl
  unfold xcalc makeE0
  dsimp only
  rw [hp1]
  refine bad_add (bad_add' _ ?_) _
  unfold sumL
  refine bad_foldl (b := (k, l)) (fun s b hs => bad_add hs _) ?_ (fun s => bad_add' _ ?_) _
  · simp only [List.mem_flatMap, List.mem_map, List.mem_filter, List.mem_range]
    exact ⟨k, hk, l, ⟨hl, by simpa using hkl⟩, rfl⟩
  · unfold e0kkl
    dsimp only
    rw [if_neg hlast]
    have d : (Arith.lit 64.0 * (Arith.lit 4.0 * sq (fin (w k)) - sq (fin (w l))) : Ext) = fin 0 := by
      have : Is (Arith.lit 64.0 * (Arith.lit 4.0 * sq (fin (w k)) - sq (fin (w l))))
          (Arith.lit 64.0 * (Arith.lit 4.0 * sq (w k) - sq (w l))) := by is_fin [Is.fin]
      rw [this, four_sq e, mul_zero]
    rw [d]
    exact bad_div_zero _

/-- Frequencies 1000, 900 and 500; the overtone of the last resonates with both of the others. -/
example : ∃ r, reststNew .asymmTop 3 6 (fun _ _ _ => 0) (fun _ _ _ => 20)
      (fun i => if i = 0 then (1000 : ℝ) else if i = 1 then 900 else 500) = some r ∧
    ¬(xcalc 3 (fun _ _ _ _ => fin 0) (fun i => fin (if i = 0 then (1000 : ℝ) else if i = 1 then 900 else 500))
        (fun _ _ _ => fin 20) (fun _ _ _ => fin 0) (fun _ => fin 1) r.modes r.fermi1 r.fermi2).2.Number := by
  obtain ⟨r, hr⟩ := Option.isSome_iff_exists.1 (c21_asymmetric 3 (fun _ _ _ => 0) (fun _ _ _ => 20)
    (fun i => if i = 0 then (1000 : ℝ) else if i = 1 then 900 else 500))
  exact ⟨r, hr, c101_shadowed_violated 3 6 _ _ _ (fun _ _ _ _ => 0) (fun _ => 1) r hr 2 0 1 (by omega) (by omega) (by omega)
    (by norm_num) (by omega) (by omega) (by norm_num) (by norm_num)⟩

/-- C101, where the code violates it: with two exactly equal frequencies the rotational constants of every state are not all
numbers: a Coriolis resonance about one axis leaves the sums of the other axes with a denominator zero. -/
theorem c101_equal_violated (n : Nat) (w rc pm : Vec ℝ) (wi : Mat ℝ) (f3 z : T3 ℝ) (cs : List Coriolis)
    (states : List State) (i j : Nat) (hi : i < n) (hj : j < n) (hij : i ≠ j) (e : w i = w j) (R : Mat Ext)
    (hR : alphaa n (fun i => fin (rc i)) (alpha n (fun i => fin (rc i)) (fun i => fin (pm i)) (fun i => fin (w i))
      (fun i j => fin (wi i j)) (fun i j k => fin (z i j k)) (fun i j k => fin (f3 i j k)) cs)
      ((List.range n).map Mode.i1) states = some R) :
    ∃ x < 3, ∀ t ≤ n, ¬(R t x).Number := by
  obtain ⟨x, hx, hax⟩ : ∃ x < 3, isAxis (makeIcorol cs (i, j)) x = false := by
    unfold isAxis
    cases makeIcorol cs (i, j) with
    | none => exact ⟨0, by omega, rfl⟩
    | some a =>
      by_cases h : a = 0
      · exact ⟨1, by omega, by subst h; rfl⟩
      · exact ⟨0, by omega, by simp [h]⟩
  refine ⟨x, hx, ?_⟩
  have bad : ¬(alpha n (fun i => fin (rc i)) (fun i => fin (pm i)) (fun i => fin (w i))
      (fun i j => fin (wi i j)) (fun i j k => fin (z i j k)) (fun i j k => fin (f3 i j k)) cs i x).Number := by
    unfold alpha alphaEntry
    dsimp only
    refine bad_mul' _ (bad_add (bad_add' _ (bad_foldl (fun s b hs => ?_) (List.mem_range.2 hj) (fun s => ?_) _)) _)
    · split_ifs
      · exact bad_sub hs _
      · exact bad_add hs _
      · exact hs
    · rw [if_pos hij.symm, if_neg (by rw [hax]; decide)]
      refine bad_add' _ ?_
      have d : (sq (fin (w i)) - sq (fin (w j)) : Ext) = fin 0 := by
        have : Is (sq (fin (w i)) - sq (fin (w j))) (sq (w i) - sq (w j)) := by is_fin [Is.fin]
        rw [this, e, sub_self]
      rw [d]
      exact bad_div_zero _
  generalize alpha n (fun i => fin (rc i)) (fun i => fin (pm i)) (fun i => fin (w i))
      (fun i j => fin (wi i j)) (fun i j k => fin (z i j k)) (fun i j k => fin (f3 i j k)) cs = al at hR bad
  have hcount : (Mode.count ((List.range n).map Mode.i1)).1 = n := by
    have := partition_asym .asymmTop rfl n w
    rw [c18_count]
    unfold degModes at this
    simp only [Rotor.isSymTop, Bool.false_eq_true, if_false] at this
    rw [this]
    simp
  have keep : ∀ st (l : List Nat) (s t : Ext), ¬s.Number →
      l.foldlM (alphaaStep al ((List.range n).map Mode.i1) st x) s = some t → ¬t.Number := by
    intro st l
    induction l with
    | nil =>
      intro s t hs h
      simp only [List.foldlM_nil, Option.pure_def, Option.some.injEq] at h
      exact h ▸ hs
    | cons a l ih =>
      intro s t hs h
      simp only [List.foldlM_cons, Option.bind_eq_bind, Option.bind_eq_some_iff] at h
      obtain ⟨u, hu, h⟩ := h
      refine ih u t ?_ h
      unfold alphaaStep at hu
      split at hu
      · split at hu
        · simp only [Option.map_eq_some_iff] at hu
          obtain ⟨q, -, rfl⟩ := hu
          exact bad_add hs _
        · cases hu
      · cases hu
  have make : ∀ st (l : List Nat) (s t : Ext), i ∈ l →
      l.foldlM (alphaaStep al ((List.range n).map Mode.i1) st x) s = some t → ¬t.Number := by
    intro st l
    induction l with
    | nil => intro s t h; cases h
    | cons a l ih =>
      intro s t hm h
      simp only [List.foldlM_cons, Option.bind_eq_bind, Option.bind_eq_some_iff] at h
      obtain ⟨u, hu, h⟩ := h
      rcases List.mem_cons.1 hm with rfl | hm
      · refine keep st l u t ?_ h
        unfold alphaaStep at hu
        rw [List.getElem?_map, List.getElem?_range hi] at hu
        simp only [Option.map_some] at hu
        cases st with
        | i1st v =>
          simp only [Option.map_eq_some_iff] at hu
          obtain ⟨q, -, rfl⟩ := hu
          exact bad_add' _ (bad_mul bad _)
        | _ => cases hu
      · exact ih u t hm h
  have entry : ∀ k v, alphaaEntry (fun i => fin (rc i)) al ((List.range n).map Mode.i1) states k x = some v →
      ¬v.Number := by
    intro k v h
    unfold alphaaEntry at h
    simp only [Option.bind_eq_some_iff, Option.map_eq_some_iff, hcount] at h
    obtain ⟨st, -, u, hu, rfl⟩ := h
    exact bad_add' _ (make st _ _ u (List.mem_range.2 hi) hu)
  unfold alphaa at hR
  have write : ∀ (L : List (Nat × Nat)) (m m' : Mat Ext),
      L.foldlM (fun m p => (alphaaEntry (fun i => fin (rc i)) al ((List.range n).map Mode.i1) states p.1 p.2).map
        fun v => Mat.set m p.1 p.2 v) m = some m' → ∀ t, (t, x) ∈ L ∨ ¬(m t x).Number → ¬(m' t x).Number := by
    intro L
    induction L with
    | nil =>
      intro m m' h t ht
      simp only [List.foldlM_nil, Option.pure_def, Option.some.injEq] at h
      subst h
      rcases ht with ht | ht
      · cases ht
      · exact ht
    | cons p L ih =>
      intro m m' h t ht
      simp only [List.foldlM_cons, Option.bind_eq_bind, Option.bind_eq_some_iff, Option.map_eq_some_iff] at h
      obtain ⟨_, ⟨v, hv, rfl⟩, h⟩ := h
      refine ih _ m' h t ?_
      by_cases hp : t = p.1 ∧ x = p.2
      · right
        unfold Mat.set
        rw [if_pos hp]
        rw [← hp.2] at hv
        exact entry _ v hv
      · rcases ht with ht | ht
        · rcases List.mem_cons.1 ht with c | c
          · exact absurd ⟨congrArg Prod.fst c, congrArg Prod.snd c⟩ hp
          · exact Or.inl c
        · right
          unfold Mat.set
          rw [if_neg hp]
          exact ht
  intro t ht
  refine write _ _ R hR t (Or.inl ?_)
  simp only [List.mem_flatMap, List.mem_map, List.mem_range]
  exact ⟨x, hx, t, by omega, rfl⟩

/-- Two modes at 1000. -/
example : ∃ R, alphaa 2 (fun _ => fin 1) (alpha 2 (fun _ => fin 1) (fun _ => fin 1) (fun _ => fin 1000) (fun _ _ => fin 0)
      (fun _ _ _ => fin 1) (fun _ _ _ => fin 0) [⟨1, 0, 0⟩]) ((List.range 2).map Mode.i1)
      [.i1st [0, 0], .i1st [1, 0], .i1st [0, 1]] = some R ∧ ∃ x < 3, ∀ t ≤ 2, ¬(R t x).Number :=
  ⟨_, rfl, c101_equal_violated 2 (fun _ => 1000) (fun _ => 1) (fun _ => 1) (fun _ _ => 0) (fun _ _ _ => 0) (fun _ _ _ => 1)
    [⟨1, 0, 0⟩] [.i1st [0, 0], .i1st [1, 0], .i1st [0, 1]] 0 1 (by omega) (by omega) (by omega) rfl _ rfl⟩

end Verif
