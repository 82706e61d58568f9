import Verif.Lemmas.Finite
import Verif.Spec.Finite

/-! The rotational constants and the distortion constants of asymmetric tops as values with infinities and NaN. -/

namespace Verif

variable {n : Nat} {w' : Vec Ext} {w : Vec ℝ} {f3' : T3 Ext} {f3 : T3 ℝ} {z' : T3 Ext} {z : T3 ℝ}
  {rc' : Vec Ext} {rc : Vec ℝ} {pm' : Vec Ext} {pm : Vec ℝ} {wi' : Mat Ext} {wi : Mat ℝ} {lm' : Mat Ext} {lm : Mat ℝ}

theorem makeZmat_fin (hl : ∀ i j, Is (lm' i j) (lm i j)) (nvib natom k l x : Nat) :
    Is (makeZmat nvib natom lm' k l x) (makeZmat nvib natom lm k l x) := by
  unfold makeZmat
  refine Is.ite (fun _ => Is.ite (fun _ => Is.sumTo fun i _ => ?_) fun _ => Is.ite (fun _ => Is.sumTo fun i _ => ?_)
    fun _ => Is.ite (fun _ => Is.sumTo fun i _ => ?_) fun _ => Is.lit _) fun _ => Is.lit _
  all_goals is_fin [hl]

theorem wilsonA_fin (hl : ∀ i j, Is (lm' i j) (lm i j)) {pos' : Nat → Nat → Ext} {pos : Nat → Nat → ℝ}
    (hp : ∀ i j, Is (pos' i j) (pos i j)) (hw : ∀ i, Is (w' i) (w i)) (nvib natom k c : Nat)
    (h0 : ∀ i < natom, 0 ≤ w i) : Is (wilsonA nvib natom pos' lm' w' k c) (wilsonA nvib natom pos lm w k c) := by
  unfold wilsonA
  refine Is.ite (fun _ => Is.mul (Is.lit _) ?_) fun _ => Is.lit _
  dsimp only
  refine Is.ite (fun _ => Is.sumTo fun i hi => ?_) fun _ => Is.ite (fun _ => Is.sumTo fun i hi => ?_)
    fun _ => Is.ite (fun _ => Is.sumTo fun i hi => ?_) fun _ =>
    Is.ite (fun _ => Is.foldl (fun i hi s t hst => ?_) (Is.lit _)) fun _ =>
    Is.ite (fun _ => Is.foldl (fun i hi s t hst => ?_) (Is.lit _)) fun _ =>
    Is.ite (fun _ => Is.foldl (fun i hi s t hst => ?_) (Is.lit _)) fun _ => Is.lit _
  all_goals
    have r : Is (Arith.sqrt (w' i)) (Arith.sqrt (w i)) := Is.sqrt (hw i) (h0 i (by simpa using hi))
    is_fin [hl, hp]

theorem makeTau_fin (hw : ∀ i, Is (w' i) (w i)) (hp : ∀ i, Is (pm' i) (pm i)) (hwi : ∀ i j, Is (wi' i j) (wi i j))
    (h0 : ∀ i < n, 0 < w i) (hp0 : ∀ i < 3, pm i ≠ 0) (i j k l : Nat) (hi : i < 3) (hj : j < 3) (hk : k < 3)
    (hl : l < 3) : Is (makeTau n w' pm' wi' i j k l) (makeTau n w pm wi i j k l) := by
  unfold makeTau TAU_CONST
  refine Is.mul (Is.mul (Is.neg (Is.lit _)) (Is.lit _)) (Is.sumTo fun v hv => ?_)
  have p := h0 v hv
  is_fin [hw, hp, hwi]
  have := mul_self_ne_zero.2 p.ne'
  unfold sq
  exact mul_ne_zero (mul_ne_zero (mul_ne_zero (mul_ne_zero this (hp0 i hi)) (hp0 j hj)) (hp0 k hk)) (hp0 l hl)

theorem tauPrime_fin {tau' : T4 Ext} {tau : T4 ℝ}
    (h : ∀ i j k l, i < 3 → j < 3 → k < 3 → l < 3 → Is (tau' i j k l) (tau i j k l)) (i j : Nat) (hi : i < 3)
    (hj : j < 3) : Is (tauPrime tau' i j) (tauPrime tau i j) := by
  unfold tauPrime
  exact Is.ite (fun _ => Is.add (h i i j j hi hi hj hj) (Is.mul (Is.lit _) (h i j i j hi hj hi hj)))
    fun _ => h i i j j hi hi hj hj

theorem quarticT_fin {tau' : Mat Ext} {tau : Mat ℝ} (h : ∀ i j, i < 3 → j < 3 → Is (tau' i j) (tau i j)) (c : Vec Nat)
    (i j : Nat) : Is (quarticT 3 c tau' i j) (quarticT 3 c tau i j) := by
  unfold quarticT
  refine Is.matFold (fun p hp a b hab => ?_) (fun _ _ => Is.lit _) i j
  simp only [List.mem_flatMap, List.mem_map, List.mem_range] at hp
  obtain ⟨x, hx, y, hy, rfl⟩ := hp
  exact Is.matSet hab _ _ (Is.divLit (h x y hx hy) (by norm_num))

theorem quartic_fin (hw : ∀ i, Is (w' i) (w i)) (hp : ∀ i, Is (pm' i) (pm i)) (hwi : ∀ i j, Is (wi' i j) (wi i j))
    (hr : ∀ i, Is (rc' i) (rc i)) (h0 : ∀ i < n, 0 < w i) (hp0 : ∀ i < 3, pm i ≠ 0) (h01 : rc 1 < rc 0)
    (h12 : rc 2 < rc 1) :
    Quartic.new .asymmTop n rc' pm' w' wi' = (Quartic.new .asymmTop n rc pm w wi).map Quartic.toExt := by
  have ht := tauPrime_fin fun i j k l hi hj hk hl => makeTau_fin hw hp hwi h0 hp0 i j k l hi hj hk hl
  have hT := quarticT_fin ht (princCart 0).1
  have d0 : (princCart 0).2 0 = 1 := rfl
  have d1 : (princCart 0).2 1 = 2 := rfl
  have d2 : (princCart 0).2 2 = 0 := rfl
  have c0 : (princCart 0).1 0 = 2 := rfl
  have c2 : (princCart 0).1 2 = 1 := rfl
  have a00 := ht 2 2 (by omega) (by omega)
  have a02 := ht 2 1 (by omega) (by omega)
  have a22 := ht 1 1 (by omega) (by omega)
  have e12 : rc 1 - rc 2 ≠ 0 := by intro e; linarith
  have e02 : rc 0 - rc 2 ≠ 0 := by intro e; linarith
  have hsig : Is ((Arith.lit 2.0 * rc' 0 - rc' 1 - rc' 2) / (rc' 1 - rc' 2))
      ((Arith.lit 2.0 * rc 0 - rc 1 - rc 2) / (rc 1 - rc 2)) := by is_fin [hr]
  have hsig0 : (Arith.lit 2.0 * rc 0 - rc 1 - rc 2) / (rc 1 - rc 2) ≠ 0 := by
    refine div_ne_zero ?_ e12
    rw [lit_real]; push_cast; intro e; norm_num at e; linarith
  have hkap : Is ((Arith.lit 2.0 * rc' 1 - rc' 0 - rc' 2) / (rc' 0 - rc' 2))
      ((Arith.lit 2.0 * rc 1 - rc 0 - rc 2) / (rc 0 - rc 2)) := by is_fin [hr]
  simp only [Quartic.new, quarticRep, Rotor.spectroLinear, Option.bind_eq_bind, Option.bind_some, quarticAsym,
    Rotor.isSymTop, d0, d1, d2, reduceCtorEq, if_false, if_true, Bool.false_and, Bool.false_eq_true, Option.map_some,
    Option.pure_def, Quartic.default]
  generalize makeTau n w' pm' wi' = tau' at *
  generalize makeTau n w pm wi = tau at *
  generalize hS' : (Arith.lit 2.0 * rc' 0 - rc' 1 - rc' 2) / (rc' 1 - rc' 2) = S' at *
  generalize hS : (Arith.lit 2.0 * rc 0 - rc 1 - rc 2) / (rc 1 - rc 2) = S at *
  refine congrArg some ?_
  simp only [Quartic.toExt, Quartic.mk.injEq]
  refine ⟨?_, ?_, ?_, ?_, ?_, ?_, ?_, ?_, ?_, ?_, ?_, ?_, ?_, ?_, ?_, ?_, ?_, ?_, ?_, ?_, ?_, ?_, ?_, ?_, ?_, ?_, ?_, ?_⟩
    <;> show Is _ _
  all_goals is_fin [hr, hT]
  all_goals first | exact a00 | exact a02 | exact a22 | (rw [lit_real]; exact mul_ne_zero (by norm_num) hsig0)

theorem powf15_pos {x : ℝ} (h : 0 < x) : 0 < Arith.powf15 x := Real.rpow_pos_of_pos h _

theorem alphaEntry_fin (hw : ∀ i, Is (w' i) (w i)) (hp : ∀ i, Is (pm' i) (pm i)) (hwi : ∀ i j, Is (wi' i j) (wi i j))
    (hr : ∀ i, Is (rc' i) (rc i)) (hz : ∀ i j k, Is (z' i j k) (z i j k)) (h3 : ∀ i j k, Is (f3' i j k) (f3 i j k))
    (h0 : ∀ i < n, 0 < w i) (hne : ∀ i j, i < n → j < n → i ≠ j → w i ≠ w j) (hp0 : ∀ i < 3, pm i ≠ 0)
    (ic : HMap (Nat × Nat)) (i x : Nat) (hi : i < n) :
    Is (alphaEntry n rc' pm' w' wi' z' f3' ic i x) (alphaEntry n rc pm w wi z f3 ic i x) := by
  unfold alphaEntry ALPHA_CONST
  dsimp only
  have pi := h0 i hi
  refine Is.mul (by is_fin [hr, hw]; exact pi.ne') (Is.add (Is.add (Is.mul (Is.sumTo fun y hy => ?_) (Is.lit _))
    (Is.foldl (fun j hj s t hst => ?_) (Is.lit _))) (Is.mul (Is.sumTo fun j hj => ?_) (Is.lit _)))
  · is_fin [hwi, hp]
    exact hp0 y hy
  · have pj := h0 j (List.mem_range.1 hj)
    have ne := fun h => hne i j hi (List.mem_range.1 hj) h
    refine Is.ite (fun hij => Is.ite (fun _ => ?_) fun _ => ?_) fun _ => hst
    · unfold corReg
      is_fin [hz, hw]
      positivity
    · unfold corFull
      is_fin [hz, hw]
      unfold sq
      have e : w i * w i - w j * w j = (w i - w j) * (w i + w j) := by ring
      rw [e]
      exact mul_ne_zero (sub_ne_zero.2 (ne (Ne.symm hij))) (by positivity)
  · have pj := h0 j hj
    have q := Is.powf15 (hw j) pj.le
    is_fin [hwi, h3, hw]
    exact (powf15_pos pj).ne'

theorem alphaa_fin {al' : Mat Ext} {al : Mat ℝ} (hr : ∀ i, Is (rc' i) (rc i)) (modes : List Mode)
    (hal : ∀ i x, Mode.i1 i ∈ modes → Is (al' i x) (al i x)) (states : List State) {m : Mat ℝ}
    (h : alphaa n rc al modes states = some m) :
    ∃ m', alphaa n rc' al' modes states = some m' ∧ ∀ i j, Is (m' i j) (m i j) := by
  have step : ∀ st axis ii (s' : Ext) (s : ℝ), Is s' s → ∀ t, alphaaStep al modes st axis s ii = some t →
      ∃ t', alphaaStep al' modes st axis s' ii = some t' ∧ Is t' t := by
    intro st axis ii s' s hs t ht
    unfold alphaaStep at ht ⊢
    cases hm : modes[ii]? with
    | none => rw [hm] at ht; cases ht
    | some md =>
      rw [hm] at ht
      have hmem := List.mem_of_getElem? hm
      cases md <;> try (cases ht; done)
      rename_i i
      cases st <;> try (cases ht; done)
      rename_i v
      simp only [Option.map_eq_some_iff] at ht ⊢
      obtain ⟨q, hq, rfl⟩ := ht
      refine ⟨_, ⟨q, hq, rfl⟩, ?_⟩
      have := hal i axis hmem
      is_fin [hal]
  have fold : ∀ st axis (l : List Nat) (s' : Ext) (s : ℝ), Is s' s → ∀ t,
      l.foldlM (alphaaStep al modes st axis) s = some t →
      ∃ t', l.foldlM (alphaaStep al' modes st axis) s' = some t' ∧ Is t' t := by
    intro st axis l
    induction l with
    | nil =>
      intro s' s hs t ht
      simp only [List.foldlM_nil, Option.pure_def, Option.some.injEq] at ht ⊢
      exact ⟨s', rfl, ht ▸ hs⟩
    | cons a l ih =>
      intro s' s hs t ht
      simp only [List.foldlM_cons, Option.bind_eq_bind, Option.bind_eq_some_iff] at ht ⊢
      obtain ⟨u, hu, ht⟩ := ht
      obtain ⟨u', hu', e⟩ := step st axis a s' s hs u hu
      obtain ⟨t', ht', e'⟩ := ih u' u e t ht
      exact ⟨t', ⟨u', hu', ht'⟩, e'⟩
  have entry : ∀ k x t, alphaaEntry rc al modes states k x = some t →
      ∃ t', alphaaEntry rc' al' modes states k x = some t' ∧ Is t' t := by
    intro k x t ht
    unfold alphaaEntry at ht ⊢
    simp only [Option.bind_eq_some_iff, Option.map_eq_some_iff] at ht ⊢
    obtain ⟨st, hst, u, hu, rfl⟩ := ht
    obtain ⟨u', hu', e⟩ := fold st x _ _ _ (Is.lit 0) u hu
    exact ⟨_, ⟨st, hst, u', hu', rfl⟩, Is.add (hr x) e⟩
  unfold alphaa at h ⊢
  generalize ((List.range 3).flatMap fun axis => (List.range (n + 1)).map fun k => (k, axis)) = L at h ⊢
  have init : ∀ i j : Nat, Is ((fun _ _ => Arith.lit 0 : Mat Ext) i j) ((fun _ _ => Arith.lit 0 : Mat ℝ) i j) :=
    fun _ _ => Is.lit _
  generalize (fun _ _ => Arith.lit 0 : Mat Ext) = m0' at init ⊢
  generalize (fun _ _ => Arith.lit 0 : Mat ℝ) = m0 at init h
  induction L generalizing m0 m0' with
  | nil =>
    simp only [List.foldlM_nil, Option.pure_def, Option.some.injEq] at h ⊢
    exact ⟨m0', rfl, h ▸ init⟩
  | cons a l ih =>
    simp only [List.foldlM_cons, Option.bind_eq_bind, Option.bind_eq_some_iff, Option.map_eq_some_iff] at h ⊢
    obtain ⟨_, ⟨v, hv, rfl⟩, h⟩ := h
    obtain ⟨v', hv', e⟩ := entry _ _ v hv
    obtain ⟨m', hm', e'⟩ := ih _ _ (Is.matSet init _ _ e) h
    exact ⟨m', ⟨_, ⟨v', hv', rfl⟩, hm'⟩, e'⟩

theorem vibrArr_fin (c : Vec Nat) {a b d : Ext} {a' b' d' : ℝ} (ha : Is a a') (hb : Is b b') (hd : Is d d') (i : Nat) :
    Is (vibrArr c a b d i) (vibrArr c a' b' d' i) := by
  unfold vibrArr
  simp only [Function.update_apply]
  exact Is.ite (fun _ => hd) fun _ => Is.ite (fun _ => hb) fun _ => Is.ite (fun _ => ha) fun _ => Is.lit _

theorem rota_fin (header : List Int) (nstop : Nat) (hr : ∀ i, Is (rc' i) (rc i)) {m' : Mat Ext} {m : Mat ℝ}
    (hm : ∀ i j, Is (m' i j) (m i j)) (states : List State) (q : Quartic ℝ) :
    rota header nstop rc' m' states q.toExt = (rota header nstop rc m states q).map (List.map Rot.toExt) := by
  unfold rota
  have step : ∀ (l : List (Rot ℝ)) k, rotaStep (header.getD 7 4) rc' m' states q.toExt (l.map Rot.toExt) k =
      (rotaStep (header.getD 7 4) rc m states q l k).map (List.map Rot.toExt) := by
    intro l k
    unfold rotaStep
    by_cases h : header.getD 7 4 > 2
    · rw [if_pos h, if_pos h]
      dsimp only
      have hv := vibrArr_fin (princCart 0).1 (Is.sub (hm k 0) (hr 0)) (Is.sub (hm k 1) (hr 1)) (Is.sub (hm k 2) (hr 2))
      cases states[k]? with
      | none => rfl
      | some st =>
        cases st with
        | i1st v =>
          simp only [Option.map_some, List.map_append, List.map_cons, List.map_nil, Rot.toExt]
          have h0 := Is.add (Is.fin q.bxa) (hv 0)
          have h1 := Is.add (Is.fin q.bya) (hv 1)
          have h2 := Is.add (Is.fin q.bza) (hv 2)
          unfold Is at h0 h1 h2
          rw [← h0, ← h1, ← h2]
          rfl
        | _ => rfl
    · rw [if_neg h, if_neg h]; rfl
  have fold : ∀ (L : List Nat) (l : List (Rot ℝ)),
      L.foldlM (rotaStep (header.getD 7 4) rc' m' states q.toExt) (l.map Rot.toExt) =
        (L.foldlM (rotaStep (header.getD 7 4) rc m states q) l).map (List.map Rot.toExt) := by
    intro L
    induction L with
    | nil => intro l; rfl
    | cons a L ih =>
      intro l
      rw [List.foldlM_cons, List.foldlM_cons, step]
      cases rotaStep (header.getD 7 4) rc m states q l a with
      | none => rfl
      | some v => exact ih v
  exact fold _ []

end Verif
