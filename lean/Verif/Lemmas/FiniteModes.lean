import Verif.Lemmas.FiniteEnergy
import Verif.Lemmas.Rotate

/-! The normal modes and the force constants as values with infinities and NaN. -/

namespace Verif

open Ext

theorem t3Set_fin {m : T3 Ext} {n : T3 ℝ} (h : ∀ i j k, Is (m i j k) (n i j k)) (a b c : Nat) {v : Ext} {x : ℝ}
    (hv : Is v x) (i j k : Nat) : Is (T3.set m a b c v i j k) (T3.set n a b c x i j k) := by
  unfold T3.set; exact Is.ite (fun _ => hv) fun _ => h i j k

theorem t4Set_fin {m : T4 Ext} {n : T4 ℝ} (h : ∀ i j k l, Is (m i j k l) (n i j k l)) (a b c d : Nat) {v : Ext} {x : ℝ}
    (hv : Is v x) (i j k l : Nat) : Is (T4.set m a b c d v i j k l) (T4.set n a b c d x i j k l) := by
  unfold T4.set; exact Is.ite (fun _ => hv) fun _ => h i j k l

theorem t3Fold_fin {β : Type} {F : T3 Ext → β → T3 Ext} {G : T3 ℝ → β → T3 ℝ} {l : List β}
    (h : ∀ b ∈ l, ∀ m n, (∀ i j k, Is (m i j k) (n i j k)) → ∀ i j k, Is (F m b i j k) (G n b i j k)) {m : T3 Ext}
    {n : T3 ℝ} (hs : ∀ i j k, Is (m i j k) (n i j k)) : ∀ i j k, Is (l.foldl F m i j k) (l.foldl G n i j k) := by
  induction l generalizing m n with
  | nil => exact hs
  | cons b l ih => exact ih (fun c hc => h c (List.mem_cons_of_mem _ hc)) (h b List.mem_cons_self m n hs)

theorem t4Fold_fin {β : Type} {F : T4 Ext → β → T4 Ext} {G : T4 ℝ → β → T4 ℝ} {L : List β}
    (h : ∀ b ∈ L, ∀ m n, (∀ i j k l, Is (m i j k l) (n i j k l)) → ∀ i j k l, Is (F m b i j k l) (G n b i j k l))
    {m : T4 Ext} {n : T4 ℝ} (hs : ∀ i j k l, Is (m i j k l) (n i j k l)) :
    ∀ i j k l, Is (L.foldl F m i j k l) (L.foldl G n i j k l) := by
  induction L generalizing m n with
  | nil => exact hs
  | cons b L ih => exact ih (fun c hc => h c (List.mem_cons_of_mem _ hc)) (h b List.mem_cons_self m n hs)

theorem matMul_fin {a' b' : Mat Ext} {a b : Mat ℝ} (ha : ∀ i j, Is (a' i j) (a i j)) (hb : ∀ i j, Is (b' i j) (b i j))
    (n i j : Nat) : Is (matMul n a' b' i j) (matMul n a b i j) :=
  Is.sumTo fun k _ => Is.mul (ha i k) (hb k j)

theorem sandwich_fin {a' b' : Mat Ext} {a b : Mat ℝ} (ha : ∀ i j, Is (a' i j) (a i j)) (hb : ∀ i j, Is (b' i j) (b i j))
    (i j : Nat) : Is (sandwich a' b' i j) (sandwich a b i j) :=
  matMul_fin (matMul_fin (fun i j => ha j i) hb 3) ha 3 i j

theorem congruence_fin {a' b' : Mat Ext} {a b : Mat ℝ} (ha : ∀ i j, Is (a' i j) (a i j)) (hb : ∀ i j, Is (b' i j) (b i j))
    (n i j : Nat) : Is (congruence n a' b' i j) (congruence n a b i j) :=
  matMul_fin (matMul_fin (fun i j => ha j i) hb n) ha n i j

variable {ax' : Mat Ext} {ax : Mat ℝ}

theorem rot2nd_fin (ha : ∀ i j, Is (ax' i j) (ax i j)) {f' : Mat Ext} {f : Mat ℝ} (hf : ∀ i j, Is (f' i j) (f i j))
    (natom i j : Nat) : Is (rot2nd natom ax' f' i j) (rot2nd natom ax f i j) := by
  unfold rot2nd
  refine Is.matFold (fun p _ m n hmn => ?_) (fun _ _ => Is.lit _) i j
  unfold rot2Step
  refine Is.matFold (fun q _ m n hmn => ?_) hmn
  exact Is.matSet hmn _ _ (sandwich_fin ha (fun i j => hf _ _) _ _)

theorem rot3rd_fin (ha : ∀ i j, Is (ax' i j) (ax i j)) {f' : T3 Ext} {f : T3 ℝ} (hf : ∀ i j k, Is (f' i j k) (f i j k))
    (n3n natom i j k : Nat) : Is (rot3rd n3n natom ax' f' i j k) (rot3rd n3n natom ax f i j k) := by
  unfold rot3rd
  refine t3Fold_fin (fun p _ m n hmn => ?_) (t3Fold_fin (fun p _ m n hmn => ?_) fun _ _ _ => Is.lit _) i j k
  · unfold rot3Step2
    refine t3Fold_fin (fun q _ m' n' h => ?_) hmn
    refine t3Set_fin h _ _ _ ?_
    is_fin [hmn, ha]
  · unfold rot3Step1
    refine t3Fold_fin (fun q _ m n hmn => ?_) hmn
    exact t3Set_fin hmn _ _ _ (sandwich_fin ha (fun i j => hf _ _ _) _ _)

theorem rot4th_fin (ha : ∀ i j, Is (ax' i j) (ax i j)) {f' : T4 Ext} {f : T4 ℝ}
    (hf : ∀ i j k l, Is (f' i j k l) (f i j k l)) (n3n natom i j k l : Nat) :
    Is (rot4th n3n natom ax' f' i j k l) (rot4th n3n natom ax f i j k l) := by
  unfold rot4th
  refine t4Fold_fin (fun p _ m n hmn => ?_) (t4Fold_fin (fun p _ m n hmn => ?_) fun _ _ _ _ => Is.lit _) i j k l
  · unfold rot4Step2
    refine t4Fold_fin (fun q _ m' n' h => ?_) hmn
    exact t4Set_fin h _ _ _ _ (sandwich_fin ha (fun i j => hmn _ _ _ _) _ _)
  · unfold rot4Step1
    refine t4Fold_fin (fun q _ m n hmn => ?_) hmn
    exact t4Set_fin hmn _ _ _ _ (sandwich_fin ha (fun i j => hf _ _ _ _) _ _)

theorem formSec_fin {f' : Mat Ext} {f : Mat ℝ} (hf : ∀ i j, Is (f' i j) (f i j)) {q' : Vec Ext} {q : Vec ℝ} (n3n : Nat)
    (hq : ∀ i < n3n, Is (q' (i / 3)) (q (i / 3))) (i j : Nat) : Is (formSec n3n f' q' i j) (formSec n3n f q i j) := by
  have key : ∀ i j, Is ((upperPairs n3n).foldl
      (fun fx p => Mat.set fx p.1 p.2 (q' (p.1 / 3) * fx p.1 p.2 * q' (p.2 / 3))) f' i j)
      ((upperPairs n3n).foldl (fun fx p => Mat.set fx p.1 p.2 (q (p.1 / 3) * fx p.1 p.2 * q (p.2 / 3))) f i j) := by
    refine Is.matFold (fun p hp m n hmn => ?_) hf
    refine Is.matSet hmn _ _ ?_
    simp only [upperPairs, List.mem_flatMap, List.mem_map, List.mem_range, List.mem_range'_1] at hp
    obtain ⟨a, ha, b, hb, rfl⟩ := hp
    exact Is.mul (Is.mul (hq a ha) (hmn a b)) (hq b (by omega))
  unfold formSec fillLower
  exact Is.ite (fun _ => key j i) fun _ => key i j

theorem makeLx_fin {f' : Mat Ext} {f : Mat ℝ} (hf : ∀ i j, Is (f' i j) (f i j)) {q' : Vec Ext} {q : Vec ℝ} (n3n : Nat)
    (hq : ∀ i < n3n, Is (q' (i / 3)) (q (i / 3))) (i j : Nat) : Is (makeLx n3n q' f' i j) (makeLx n3n q f i j) := by
  unfold makeLx
  refine Is.matFold (fun p hp m n hmn => ?_) (fun _ _ => Is.lit _) i j
  refine Is.matSet hmn _ _ ?_
  obtain ⟨a, b⟩ := p
  exact Is.mul (hq a (mem_pairs.1 hp).1) (hf a b)

theorem wave_fin : Is WAVE (WAVE : ℝ) := by
  unfold WAVE SQRT_AVN CL
  is_fin []
  simp only [lit_real]
  exact mul_ne_zero (mul_ne_zero (by norm_num) Real.pi_ne_zero) (by norm_num)

theorem toWavenumber_fin (x : ℝ) : Is (toWavenumber (fin x)) (toWavenumber x) := by
  unfold toWavenumber
  rw [Is.lt (Is.fin x) (Is.lit _)]
  by_cases h : Arith.lt x (Arith.lit 0.0) = true
  · rw [if_pos h, if_pos h]
    rw [lt_real, lit_real] at h
    have hx : x < 0 := by norm_num at h; exact h
    exact Is.mul (Is.mul (Is.lit _) wave_fin) (Is.sqrt (Is.neg (Is.fin x)) (by linarith))
  · rw [if_neg h, if_neg h]
    rw [lt_real, lit_real] at h
    have hx : 0 ≤ x := by norm_num at h; exact h
    exact Is.mul wave_fin (Is.sqrt (Is.fin x) hx)

theorem toWavenumbers_fin (l : List ℝ) : toWavenumbers (l.map fin) = (toWavenumbers l).map fin := by
  unfold toWavenumbers
  rw [List.map_map, List.map_map]
  exact List.map_congr_left fun x _ => toWavenumber_fin x

theorem vecOf_fin (l : List ℝ) (i : Nat) : Is (vecOf (l.map fin) i) (vecOf l i) := by
  unfold Is vecOf
  simp only [List.getD_eq_getElem?_getD, List.getElem?_map]
  cases l[i]? <;> rfl

theorem f3Of_fin (l : List ℝ) (i j k : Nat) : Is (f3Of (l.map fin) i j k) (f3Of l i j k) := by
  unfold Is f3Of F3qcm.get
  simp only [List.getElem?_map]
  cases l[find3 i j k]? <;> rfl

theorem f4Of_fin (l : List ℝ) (i j k m : Nat) : Is (f4Of (l.map fin) i j k m) (f4Of l i j k m) := by
  unfold Is f4Of F4qcm.get
  simp only [List.getElem?_map]
  cases l[find4 i j k m]? <;> rfl

theorem funit3_fin : Is FUNIT3 (FUNIT3 : ℝ) := by
  unfold FUNIT3; is_fin []; simp only [lit_real]; norm_num

theorem funit4_fin : Is FUNIT4 (FUNIT4 : ℝ) := by
  unfold FUNIT4; is_fin []; simp only [lit_real]; norm_num

theorem fact2_fin : Is FACT2 (FACT2 : ℝ) := by
  unfold FACT2; is_fin []; simp only [lit_real]; norm_num

theorem fact3_fin : Is FACT3 (FACT3 : ℝ) := by
  unfold FACT3 SQLAM PH CL; is_fin []; simp only [lit_real]; norm_num

theorem alam_fin : Is ALAM (ALAM : ℝ) := by
  unfold ALAM PH AVN CL; is_fin []; simp only [lit_real]; norm_num

theorem fact4_fin : Is FACT4 (FACT4 : ℝ) := by
  unfold FACT4 PH CL
  refine Is.div (Is.lit _) (Is.mul (Is.mul (Is.mul alam_fin alam_fin) (Is.lit _)) (Is.lit _)) ?_
  have : (ALAM : ℝ) ≠ 0 := by
    unfold ALAM PH AVN CL
    simp only [lit_real]
    have : (Arith.pi : ℝ) ≠ 0 := Real.pi_ne_zero
    refine div_ne_zero (mul_ne_zero (by norm_num) (mul_ne_zero (mul_ne_zero this this) (by norm_num))) (by norm_num)
  exact mul_ne_zero (mul_ne_zero (mul_ne_zero this this) (by rw [lit_real]; norm_num)) (by rw [lit_real]; norm_num)

theorem force3_fin {f' : T3 Ext} {f : T3 ℝ} (hf : ∀ i j k, Is (f' i j k) (f i j k)) {lx' : Mat Ext} {lx : Mat ℝ}
    (hl : ∀ i j, Is (lx' i j) (lx i j)) {w' : Vec Ext} {w : Vec ℝ} (hw : ∀ i, Is (w' i) (w i)) (n3n n : Nat)
    (h0 : ∀ i < n, 0 < w i) : force3 n3n f' lx' n w' = (force3 n3n f lx n w).map fin := by
  have key : ∀ i j k, Is ((List.range n3n).foldl (force3Plane n3n lx') f' i j k)
      ((List.range n3n).foldl (force3Plane n3n lx) f i j k) := by
    refine t3Fold_fin (fun p _ m n hmn i j k => ?_) hf
    unfold force3Plane
    exact Is.ite (fun _ => congruence_fin hl (fun i j => Is.mul (hmn _ _ _) funit3_fin) _ _ _) fun _ => hmn i j k
  unfold force3
  dsimp only
  rw [List.map_map]
  refine List.map_congr_left fun p hp => ?_
  simp only [nest3, List.mem_flatMap, List.mem_map, List.mem_range] at hp
  obtain ⟨i, hi, j, hj, k, hk, rfl⟩ := hp
  have pi := h0 i hi
  have pj := h0 j (by omega)
  have pk := h0 k (by omega)
  have pp : 0 < w i * w j * w k := by positivity
  refine Is.mul (Is.sumTo fun l _ => Is.mul (key _ _ _) (hl _ _))
    (Is.div fact3_fin (Is.sqrt (Is.mul (Is.mul (hw i) (hw j)) (hw k)) pp.le) ?_)
  rw [sqrt_real]
  exact Real.sqrt_ne_zero'.2 pp

theorem force4_fin {f' : T4 Ext} {f : T4 ℝ} (hf : ∀ i j k l, Is (f' i j k l) (f i j k l)) {lx' : Mat Ext} {lx : Mat ℝ}
    (hl : ∀ i j, Is (lx' i j) (lx i j)) {w' : Vec Ext} {w : Vec ℝ} (hw : ∀ i, Is (w' i) (w i)) (n3n n : Nat)
    (h0 : ∀ i < n, 0 < w i) : force4 n3n f' lx' n w' = (force4 n3n f lx n w).map (List.map fin) := by
  have key : ∀ i j k l, Is (force4Half n3n f' lx' i j k l) (force4Half n3n f lx i j k l) := by
    unfold force4Half
    refine t4Fold_fin (fun p _ m n hmn i j k l => ?_) fun _ _ _ _ => Is.lit _
    unfold force4Plane
    exact Is.ite (fun _ => congruence_fin hl (fun i j => Is.mul (hf _ _ _ _) funit4_fin) _ _ _) fun _ => hmn i j k l
  unfold force4
  by_cases hn : n = 0
  · rw [if_pos hn, if_pos hn]; rfl
  rw [if_neg hn, if_neg hn]
  dsimp only
  unfold force4Fill
  have val : ∀ p ∈ force4Order n, Is (force4Val n3n (force4Half n3n f' lx') lx' w' p.1 p.2.1 p.2.2.1 p.2.2.2)
      (force4Val n3n (force4Half n3n f lx) lx w p.1 p.2.1 p.2.2.1 p.2.2.2) := by
    intro p hp
    simp only [force4Order, List.mem_flatMap, List.mem_map, List.mem_range] at hp
    obtain ⟨i, hi, j, hj, k, hk, l, hl', rfl⟩ := hp
    have pi := h0 i hi
    have pj := h0 j (by omega)
    have pk := h0 k hk
    have pl := h0 l (by omega)
    have pp : 0 < w i * w j * w k * w l := by positivity
    unfold force4Val
    refine Is.mul (congruence_fin hl (fun _ _ => key _ _ _ _) _ _ _)
      (Is.div fact4_fin (Is.sqrt (Is.mul (Is.mul (Is.mul (hw i) (hw j)) (hw k)) (hw l)) pp.le) ?_)
    rw [sqrt_real]
    exact Real.sqrt_ne_zero'.2 pp
  have init : List.replicate (find4 (n - 1) (n - 1) (n - 1) (n - 1) + 1) (Arith.lit 0.0 : Ext) =
      (List.replicate (find4 (n - 1) (n - 1) (n - 1) (n - 1) + 1) (Arith.lit 0.0 : ℝ)).map fin := by
    rw [List.map_replicate]; rfl
  rw [init]
  generalize List.replicate _ (Arith.lit 0.0 : ℝ) = l0
  generalize force4Order n = L at val
  clear init
  induction L generalizing l0 with
  | nil => rfl
  | cons p L ih =>
    rw [List.foldlM_cons, List.foldlM_cons, val p List.mem_cons_self]
    unfold F4qcm.put
    rw [List.length_map]
    by_cases h : find4 p.2.2.1 p.2.2.2 p.1 p.2.1 < l0.length
    · rw [if_pos h, if_pos h, ← List.map_set]
      exact ih _ (fun q hq => val q (List.mem_cons_of_mem _ hq))
    · rw [if_neg h, if_neg h]; rfl

theorem chunks_fin (n : Nat) (l : List ℝ) : chunks n (l.map fin) = (chunks n l).map (List.map fin) := by
  induction h : l.length using Nat.strong_induction_on generalizing l with
  | _ k ih =>
    rw [chunks]
    conv_rhs => rw [chunks]
    by_cases c : n = 0 ∨ l = []
    · rw [dif_pos (by simpa using c), dif_pos c]; rfl
    · rw [dif_neg (by simpa using c), dif_neg c, List.map_cons, List.map_take, ← List.map_drop]
      have : l.length ≠ 0 := fun h0 => c (Or.inr (List.length_eq_zero_iff.1 h0))
      rw [ih (l.drop n).length (by rw [List.length_drop]; omega) _ rfl]

theorem toVec_fin {m' : Mat Ext} {m : Mat ℝ} (h : ∀ i j, Is (m' i j) (m i j)) (r c : Nat) :
    toVec r c m' = (toVec r c m).map (List.map (List.map fin)) := by
  unfold toVec
  split_ifs
  · rfl
  · rw [Option.map_some, ← chunks_fin, List.map_flatMap]
    simp only [List.map_map]
    refine congrArg some (congrArg _ (List.flatMap_congr fun j _ => List.map_congr_left fun i _ => h i j))

theorem irrepLoop_fin {ι : Type} {ask' : Ext → Option ι} {ask : ℝ → Option ι} (h : ∀ e, ask' (fin e) = ask e) (a : ι)
    (fuel : Nat) (e : ℝ) (r : Option ι) : irrepLoop ask' a fuel (fin e) r = irrepLoop ask a fuel e r := by
  induction fuel generalizing e r with
  | zero => cases r <;> rfl
  | succ n ih =>
    cases r with
    | some v => rfl
    | none =>
      unfold irrepLoop
      rw [Is.le (Is.lit _) (Is.fin e)]
      have : (fin e * Arith.lit 10.0 : Ext) = fin (e * Arith.lit 10.0) := Is.mul (Is.fin e) (Is.lit _)
      dsimp only
      rw [this, h, ih]

theorem runModes_fin {ι : Type} {s : SpectroIn ℝ} {o : Oracles ℝ ι} {o' : Oracles Ext ι} (ho : o'.Agree o)
    (hr : s.rotor = .asymmTop) (hn : s.n3n = 3 * s.natom) (hw : ∀ i < s.natom, 0 < s.weights i) (fc2 : Mat ℝ)
    {m : ModesOut ℝ ι} (h : runModes s o fc2 = some m) :
    ∃ m', runModes s.toExt o' (fun i j => fin (fc2 i j)) = some m' ∧ m'.freq = m.freq.map fin ∧
      (∀ i j, Is (m'.lxm i j) (m.lxm i j)) ∧ (∀ i j, Is (m'.lx i j) (m.lx i j)) ∧ m'.irreps = m.irreps := by
  have sqm : ∀ i < s.n3n, Is ((fun i => Arith.lit 1.0 / Arith.sqrt (s.toExt.weights i)) (i / 3))
      ((fun i => Arith.lit 1.0 / Arith.sqrt (s.weights i)) (i / 3)) := by
    intro i hi
    have p := hw (i / 3) (by omega)
    exact Is.div (Is.lit _) (Is.sqrt (Is.fin _) p.le) (by rw [sqrt_real]; exact Real.sqrt_ne_zero'.2 p)
  have fx := formSec_fin (f' := fun i j => FACT2 * rot2nd s.toExt.natom s.toExt.axes (fun i j => fin (fc2 i j)) i j)
    (f := fun i j => FACT2 * rot2nd s.natom s.axes fc2 i j)
    (q' := fun i => Arith.lit 1.0 / Arith.sqrt (s.toExt.weights i)) (q := fun i => Arith.lit 1.0 / Arith.sqrt (s.weights i))
    (fun i j => Is.mul fact2_fin (rot2nd_fin (fun _ _ => Is.fin _) (fun _ _ => Is.fin _) _ i j)) s.n3n sqm
  set fxm' := formSec s.n3n (fun i j => FACT2 * rot2nd s.toExt.natom s.toExt.axes (fun i j => fin (fc2 i j)) i j)
    fun i => Arith.lit 1.0 / Arith.sqrt (s.toExt.weights i) with efx'
  set fxm := formSec s.n3n (fun i j => FACT2 * rot2nd s.natom s.axes fc2 i j)
    fun i => Arith.lit 1.0 / Arith.sqrt (s.weights i) with efx
  have e1 : fxm' = fun i j => fin (fxm i j) := by funext i j; exact fx i j
  obtain ⟨d1, d2⟩ := symmEigenDecomp_fin (vecs' := (o'.eigen fxm').2) (o.eigen fxm).1 (vecs := (o.eigen fxm).2)
    (fun i j => by rw [e1]; exact ho.vecs fxm i j) true
  have hv : (o'.eigen fxm').1 = (o.eigen fxm).1.map fin := by rw [e1]; exact ho.vals fxm
  rw [← hv] at d1 d2
  have irr : ∀ (cols nvib : Nat) (l' : Mat Ext) (l : Mat ℝ), (∀ i j, Is (l' i j) (l i j)) →
      computeIrreps o'.fuel o'.irrepOf o'.irrepA cols l' nvib (Arith.lit 1e-4) =
        computeIrreps o.fuel o.irrepOf o.irrepA cols l nvib (Arith.lit 1e-4) := by
    intro cols nvib l' l hl
    have e : l' = fun i j => fin (l i j) := by funext i j; exact hl i j
    unfold computeIrreps
    refine congrArg (fun f => List.mapM f _) ?_
    funext i
    rw [e, ho.fuel, ho.irrepA]
    dsimp only
    have : (Arith.lit 1e-4 : Ext) = fin (Arith.lit 1e-4) := rfl
    rw [this, ho.irrepOf]
    exact irrepLoop_fin (fun e => ho.irrepOf _ e) _ _ _ _
  unfold runModes runAlign at h
  rw [hr] at h
  simp only [Rotor.isSymTop, Bool.false_eq_true, if_false, Option.bind_eq_bind, Option.bind_some, Option.bind_eq_some_iff,
    Option.pure_def, Option.some.injEq] at h
  obtain ⟨ir, hir, rfl⟩ := h
  rw [← efx] at hir ⊢
  refine ⟨⟨toWavenumbers (symmEigenDecomp (o'.eigen fxm').1 (o'.eigen fxm').2 true).1,
    (symmEigenDecomp (o'.eigen fxm').1 (o'.eigen fxm').2 true).2,
    makeLx s.n3n (fun i => Arith.lit 1.0 / Arith.sqrt (s.toExt.weights i))
      (symmEigenDecomp (o'.eigen fxm').1 (o'.eigen fxm').2 true).2, ir⟩, ?_, ?_, d2, ?_, rfl⟩
  · unfold runModes runAlign
    have hr' : s.toExt.rotor = .asymmTop := hr
    rw [hr']
    simp only [Rotor.isSymTop, Bool.false_eq_true, if_false, Option.bind_eq_bind, Option.bind_some]
    have : s.toExt.n3n = s.n3n := rfl
    rw [this, ← efx']
    have : s.toExt.nvib = s.nvib := rfl
    rw [this, irr _ _ _ _ d2, hir]
    rfl
  · show toWavenumbers _ = _
    rw [d1, toWavenumbers_fin]
  · exact makeLx_fin (q' := fun i => Arith.lit 1.0 / Arith.sqrt (s.toExt.weights i))
      (q := fun i => Arith.lit 1.0 / Arith.sqrt (s.weights i)) d2 s.n3n sqm

end Verif
