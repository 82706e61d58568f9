import Verif.Lemmas.Finite
import Verif.Spec.Finite

/-! The resonances and the energies as values with infinities and NaN. -/

namespace Verif

open Ext

variable {n : Nat} {w' : Vec Ext} {w : Vec ℝ} {f3' : T3 Ext} {f3 : T3 ℝ} {z' : T3 Ext} {z : T3 ℝ}

theorem ctol_fin : Is CTOL (CTOL : ℝ) := Is.lit _

theorem ztol_fin : Is ZTOL (ZTOL : ℝ) := Is.lit _

theorem ftol1_fin : Is FTOL1 (FTOL1 : ℝ) := Is.lit _

theorem f3tol_fin : Is F3TOL (F3TOL : ℝ) := Is.lit _

theorem dltol_fin : Is DLTOL (DLTOL : ℝ) := Is.lit _

theorem dftol_fin : Is DFTOL (DFTOL : ℝ) := Is.lit _

theorem ddtol_fin : Is DDTOL (DDTOL : ℝ) := Is.lit _

theorem corTest_fin (hw : ∀ i, Is (w' i) (w i)) (hz : ∀ i j k, Is (z' i j k) (z i j k)) (i j a b : Nat) :
    corTest w' z' i j a b = corTest w z i j a b := by
  unfold corTest
  rw [Is.le (Is.abs (Is.sub (hw i) (hw j))) ctol_fin,
    Is.le ztol_fin (Is.abs (hz i j a))]

theorem ferm1Test_fin (hw : ∀ i, Is (w' i) (w i)) (h3 : ∀ i j k, Is (f3' i j k) (f3 i j k)) (i j : Nat) :
    ferm1Test w' i j f3' = ferm1Test w i j f3 := by
  unfold ferm1Test
  have a : Is (Arith.lit 2.0 * w' i - w' j) (Arith.lit 2.0 * w i - w j) := by is_fin [hw]
  rw [Is.le (Is.abs a) ftol1_fin, Is.le f3tol_fin (Is.abs (h3 i i j))]

theorem aminjm_fin {a b c : Ext} {x y t : ℝ} (ha : Is a x) (hb : Is b y) (hc : Is c t) :
    Is (aminjm a b c) (aminjm x y t) := by
  unfold Is at *
  unfold aminjm
  have e : [a, b, c] = [x, y, t].map fin := by rw [ha, hb, hc]; rfl
  rw [e, ← List.map_mergeSort (r := fun a b => !Arith.lt b a) (fun p _ q _ => rfl), hc]
  simp only [List.getD_eq_getElem?_getD, List.getElem?_map]
  cases ([x, y, t].mergeSort fun a b => !Arith.lt b a)[2]? <;> rfl

theorem ferm2Test_fin (hw : ∀ i, Is (w' i) (w i)) (h3 : ∀ i j k, Is (f3' i j k) (f3 i j k)) (i j k : Nat) :
    ferm2Test w' i j k f3' = ferm2Test w i j k f3 := by
  unfold ferm2Test
  dsimp only
  have a : Is (w' i - w' j - w' k) (w i - w j - w k) := by is_fin [hw]
  have b : Is (-w' i + w' j - w' k) (-w i + w j - w k) := by is_fin [hw]
  have c : Is (-w' i - w' j + w' k) (-w i - w j + w k) := by is_fin [hw]
  have d : Is (w' i + w' j + w' k) (w i + w j + w k) := by is_fin [hw]
  rw [Is.le f3tol_fin (Is.abs (h3 i j k)),
    Is.le (Is.abs (Is.mul (Is.mul (Is.mul a b) c) d)) dltol_fin,
    Is.le (Is.abs (aminjm_fin a b c)) dftol_fin]

theorem darlingTest_fin (hw : ∀ i, Is (w' i) (w i)) (i j : Nat) : darlingTest w' i j = darlingTest w i j := by
  unfold darlingTest
  have a : Is (Arith.lit 2.0 * w' i - Arith.lit 2.0 * w' j) (Arith.lit 2.0 * w i - Arith.lit 2.0 * w j) := by
    is_fin [hw]
  rw [Is.le (Is.abs a) ddtol_fin]

theorem restst_fin (hw : ∀ i, Is (w' i) (w i)) (hz : ∀ i j k, Is (z' i j k) (z i j k))
    (h3 : ∀ i j k, Is (f3' i j k) (f3 i j k)) (n i2vib : Nat) :
    reststNew .asymmTop n i2vib z' f3' w' = reststNew .asymmTop n i2vib z f3 w := by
  unfold reststNew
  simp only [coriolis, fermi1, fermi2, darling, coriolisAsym, darlingLower, fermi2Asym, corTest_fin hw hz,
    ferm1Test_fin hw h3, ferm2Test_fin hw h3, darlingTest_fin hw]
  rfl

theorem setAt_fin (l : List ℝ) (i : Nat) (v : ℝ) : setAt (l.map fin) i (fin v) = (setAt l i v).map (List.map fin) := by
  unfold setAt
  rw [List.length_map]
  by_cases h : i < l.length
  · rw [if_pos h, if_pos h, Option.map_some, List.map_set]
  · rw [if_neg h, if_neg h]; rfl

theorem stateEnergy_fin (hw : ∀ i, Is (w' i) (w i)) {x' : Mat Ext} {x : Mat ℝ} (hx : ∀ i j, Is (x' i j) (x i j))
    {e' : Ext} {e : ℝ} (he : Is e' e) (i1 : List Nat) (v1 : List Nat) (v2 : List (Nat × Nat)) :
    stateEnergy i1 [] w' x' none e' v1 v2 = (stateEnergy i1 [] w x none e v1 v2).map fin := by
  unfold stateEnergy
  dsimp only
  by_cases h : i1.length ≤ v1.length ∧ ([] : List (Nat × Nat)).length ≤ v2.length
  · rw [if_pos h, if_pos h]
    simp only [engVal6, List.length_nil, if_true, Option.map_some]
    refine congrArg some ?_
    show Is _ _
    refine Is.add (Is.add (Is.add (Is.add (Is.add (Is.add (Is.sumTo fun i _ => ?_) (Is.sumTo fun i _ => ?_))
      (Is.sumL fun p _ => ?_)) (Is.sumL fun p _ => ?_)) (Is.sumL fun p _ => ?_)) (Is.lit _)) he
    all_goals is_fin [hw, hx]
  · rw [if_neg h, if_neg h]; rfl

theorem foldlM_fin {β : Type} {F : List Ext → β → Option (List Ext)} {G : List ℝ → β → Option (List ℝ)}
    (h : ∀ l b, F (l.map fin) b = (G l b).map (List.map fin)) (L : List β) (l : List ℝ) :
    L.foldlM F (l.map fin) = (L.foldlM G l).map (List.map fin) := by
  induction L generalizing l with
  | nil => rfl
  | cons b L ih =>
    rw [List.foldlM_cons, List.foldlM_cons, h]
    cases G l b with
    | none => rfl
    | some v => exact ih v

theorem part1Eng_fin (hw : ∀ i, Is (w' i) (w i)) {x' : Mat Ext} {x : Mat ℝ} (hx : ∀ i j, Is (x' i j) (x i j))
    {e' : Ext} {e : ℝ} (he : Is e' e) (ns : Nat) (i1 : List Nat) (sp : StatePartition) (eng : List ℝ) :
    part1Eng ns i1 [] w' x' none e' sp (eng.map fin) =
      (part1Eng ns i1 [] w x none e sp eng).map (List.map fin) := by
  unfold part1Eng
  refine foldlM_fin (fun l b => ?_) _ _
  cases sp.i1sts[b]? with
  | none => rfl
  | some v1 =>
    cases sp.i2sts[b]? with
    | none => rfl
    | some v2 =>
      simp only [Option.bind_eq_bind, Option.bind_some, stateEnergy_fin hw hx he]
      cases stateEnergy i1 [] w x none e v1 v2 with
      | none => rfl
      | some v => exact setAt_fin l b v

theorem symmEigenDecomp_fin (vals : List ℝ) {vecs' : Mat Ext} {vecs : Mat ℝ} (h : ∀ i j, Is (vecs' i j) (vecs i j))
    (rev : Bool) : (symmEigenDecomp (vals.map fin) vecs' rev).1 = (symmEigenDecomp vals vecs rev).1.map fin ∧
      ∀ i j, Is ((symmEigenDecomp (vals.map fin) vecs' rev).2 i j) ((symmEigenDecomp vals vecs rev).2 i j) := by
  have e : (vals.map fin).zipIdx.mergeSort (eigenLe rev) =
      (vals.zipIdx.mergeSort (eigenLe rev)).map fun p => (fin p.1, p.2) := by
    rw [List.map_mergeSort (s := eigenLe rev) (f := fun p : ℝ × Nat => (fin p.1, p.2)) (fun p _ q _ => ?_),
      List.zipIdx_map]
    · rfl
    · unfold eigenLe
      cases rev <;> rfl
  unfold symmEigenDecomp
  dsimp only
  rw [e]
  simp only [List.map_map]
  exact ⟨rfl, fun i j => h _ _⟩

theorem mixLevels_fin {e2' : Eigen2 Ext} {e2 : Eigen2 ℝ}
    (h1 : ∀ p v q : ℝ, (e2' (fin p) (fin v) (fin q)).1 = (e2 p v q).1.map fin)
    (h2 : ∀ (p v q : ℝ) (i j : Nat), (e2' (fin p) (fin v) (fin q)).2 i j = fin ((e2 p v q).2 i j))
    (swap : Bool) (s t : Nat) (v : ℝ) (eng : List ℝ) :
    mixLevels e2' swap s t (fin v) (eng.map fin) = (mixLevels e2 swap s t v eng).map (List.map fin) := by
  unfold mixLevels
  simp only [List.getElem?_map, Option.bind_eq_bind]
  cases eng[s]? with
  | none => rfl
  | some es =>
  cases eng[t]? with
  | none => rfl
  | some et =>
  cases eng[0]? with
  | none => rfl
  | some e0 =>
  simp only [Option.map_some, Option.bind_some]
  have a : (fin es - fin e0 : Ext) = fin (es - e0) := ext_fin_sub _ _
  have b : (fin et - fin e0 : Ext) = fin (et - e0) := ext_fin_sub _ _
  rw [a, b, h1]
  obtain ⟨k1, k2⟩ := symmEigenDecomp_fin (e2 (es - e0) v (et - e0)).1 (h2 (es - e0) v (et - e0)) false
  rw [k1]
  simp only [List.getElem?_map]
  rw [Is.lt (Is.abs (k2 1 0)) (Is.abs (k2 0 0))]
  generalize symmEigenDecomp (e2 (es - e0) v (et - e0)).1 (e2 (es - e0) v (et - e0)).2 false = d
  have fold : ∀ a b, (setAt (eng.map fin) a (b + fin e0)) = setAt (eng.map fin) a (b + fin e0) := fun _ _ => rfl
  cases d.1[0]? with
  | none => rfl
  | some l0 =>
  cases d.1[1]? with
  | none => rfl
  | some l1 =>
  simp only [Option.map_some, Option.bind_some]
  have two : ∀ (p q : Nat) (x y : ℝ),
      ((setAt (eng.map fin) p (fin x + fin e0)).bind fun eng => eng[0]?.bind fun e0 => setAt eng q (fin y + e0)) =
        ((setAt eng p (x + e0)).bind fun eng => eng[0]?.bind fun e0 => setAt eng q (y + e0)).map (List.map fin) := by
    intro p q x y
    have : (fin x + fin e0 : Ext) = fin (x + e0) := rfl
    rw [this, setAt_fin]
    cases setAt eng p (x + e0) with
    | none => rfl
    | some g =>
      simp only [Option.map_some, Option.bind_some, List.getElem?_map]
      cases g[0]? with
      | none => rfl
      | some c => exact setAt_fin g q (y + c)
  split_ifs
  · exact two _ _ _ _
  · exact two _ _ _ _
  · exact two _ _ _ _

theorem exec_fin {e2' : Eigen2 Ext} {e2 : Eigen2 ℝ}
    (h1 : ∀ p v q : ℝ, (e2' (fin p) (fin v) (fin q)).1 = (e2 p v q).1.map fin)
    (h2 : ∀ (p v q : ℝ) (i j : Nat), (e2' (fin p) (fin v) (fin q)).2 i j = fin ((e2 p v q).2 i j))
    (h3 : ∀ i j k, Is (f3' i j k) (f3 i j k)) (fu ov co : List Nat) (eng : List ℝ) (c : MixCall) :
    c.exec e2' fu ov co f3' (eng.map fin) = (c.exec e2 fu ov co f3 eng).map (List.map fin) := by
  have ht : Is twoSqrtTwo (twoSqrtTwo : ℝ) := Is.mul (Is.lit _) (Is.sqrt (Is.lit _) (by rw [lit_real]; norm_num))
  have ht0 : (twoSqrtTwo : ℝ) ≠ 0 := by
    unfold twoSqrtTwo
    rw [lit_real, sqrt_real]
    exact mul_ne_zero (by norm_num) (Real.sqrt_ne_zero'.2 (by norm_num))
  unfold MixCall.exec
  cases c with
  | type1 i j deg =>
    dsimp only
    cases ov[i]? with
    | none => rfl
    | some a =>
    cases fu[j]? with
    | none => rfl
    | some b =>
    show rsfrm1 _ _ _ _ _ _ _ _ = Option.map _ (rsfrm1 _ _ _ _ _ _ _ _)
    unfold rsfrm1
    have v : Is (if deg = true then f3' i i j / twoSqrtTwo else Arith.lit 0.25 * f3' i i j)
        (if deg = true then f3 i i j / twoSqrtTwo else Arith.lit 0.25 * f3 i i j) :=
      Is.ite (fun _ => Is.div (h3 i i j) ht ht0) fun _ => by is_fin [h3]
    rw [v]
    exact mixLevels_fin h1 h2 _ _ _ _ _
  | type2 i j k =>
    dsimp only
    cases co[pairIdx i j]? with
    | none => rfl
    | some a =>
    cases fu[k]? with
    | none => rfl
    | some b =>
    show rsfrm2 _ _ _ _ _ _ _ _ = Option.map _ (rsfrm2 _ _ _ _ _ _ _ _)
    unfold rsfrm2
    have v := Is.div (h3 i j k) ht ht0
    rw [v]
    exact mixLevels_fin h1 h2 _ _ _ _ _

theorem correctedFunds_fin {e2' : Eigen2 Ext} {e2 : Eigen2 ℝ}
    (h1 : ∀ p v q : ℝ, (e2' (fin p) (fin v) (fin q)).1 = (e2 p v q).1.map fin)
    (h2 : ∀ (p v q : ℝ) (i j : Nat), (e2' (fin p) (fin v) (fin q)).2 i j = fin ((e2 p v q).2 i j))
    (hw : ∀ i, Is (w' i) (w i)) {x' : Mat Ext} {x : Mat ℝ} (hx : ∀ i j, Is (x' i j) (x i j))
    (h3 : ∀ i j k, Is (f3' i j k) (f3 i j k)) {e' : Ext} {e : ℝ} (he : Is e' e) (r : Restst)
    (hr : (Mode.partition r.modes).2.1 = []) (init : List ℝ) :
    correctedFunds e2' w' x' none r f3' e' (init.map fin) =
      (correctedFunds e2 w x none r f3 e init).map fun t => (fin t.1, t.2.map fin) := by
  have hen : enrgy e2' w' x' none r f3' e' (init.map fin) = (enrgy e2 w x none r f3 e init).map (List.map fin) := by
    unfold enrgy
    simp only [hr, part1Eng_fin hw hx he]
    cases part1Eng r.states.length (Mode.partition r.modes).1 [] w x none e (State.partition r.states) init with
    | none => rfl
    | some g => exact foldlM_fin (fun l c => exec_fin h1 h2 h3 _ _ _ l c) _ g
  unfold correctedFunds
  rw [hen]
  cases enrgy e2 w x none r f3 e init with
  | none => rfl
  | some g =>
  simp only [Option.map_some, Option.bind_eq_bind, Option.bind_some, List.getElem?_map]
  cases g[0]? with
  | none => rfl
  | some z0 =>
  simp only [Option.map_some, Option.bind_some]
  generalize List.range' 1 _ = L
  have : ∀ L : List Nat, (L.mapM fun i => ((g[i]?).map fin).bind fun e => pure (e - fin z0)) =
      (L.mapM fun i => (g[i]?).bind fun e => pure (e - z0)).map (List.map fin) := by
    intro L
    induction L with
    | nil => rfl
    | cons a L ih =>
      rw [List.mapM_cons, List.mapM_cons, ih]
      cases g[a]? with
      | none => rfl
      | some v =>
        cases (L.mapM fun i => (g[i]?).bind fun e => pure (e - z0)) with
        | none => rfl
        | some l =>
          have : (fin v - fin z0 : Ext) = fin (v - z0) := ext_fin_sub _ _
          simp [this]
  rw [this]
  cases (L.mapM fun i => (g[i]?).bind fun e => pure (e - z0)) <;> rfl

end Verif
