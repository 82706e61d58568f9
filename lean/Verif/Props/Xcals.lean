import Verif.Lemmas.Xcals
import Verif.Spec.Xcals
import Mathlib.Tactic.NormNum
import Mathlib.Tactic.IntervalCases

/-! Properties of the anharmonic constants of symmetric tops: C30 (second half), C33, C34, C65, C66. -/

namespace Verif

section
variable {α : Type} [Arith α]

/-- C30, symmetric tops: the matrices of anharmonic constants and of g constants are exactly symmetric in
any arithmetic, for all indices. -/
theorem c30_symmetric_top (rotor : Rotor) (f4 : T4 α) (freq : Vec α) (f3 zmat : T3 α) (rotcon : Vec α)
    (fermi1 : List Fermi1) (fermi2 : List Fermi2) (modes : List Mode) (wila : Mat α) (x g : Mat α) (e0 : α)
    (h : xcals rotor f4 freq f3 zmat rotcon fermi1 fermi2 modes wila = some (x, g, e0)) (i j : Nat) :
    x i j = x j i ∧ g i j = g j i := by
  dsimp only [xcals] at h
  obtain ⟨y, hy, h⟩ := Option.map_eq_some_iff.1 h
  simp only [Prod.mk.injEq] at h
  obtain ⟨rfl, rfl, -⟩ := h
  unfold nondegNondeg at hy
  dsimp only at hy
  split at hy
  · cases hy
  · obtain rfl := Option.some.inj hy
    constructor
    · revert i j
      unfold degDeg degDeg1 nondegDeg
      refine foldl_inv (fun x : Mat α => ∀ i j, x i j = x j i) _ _ _ ?_ ?_
      · refine foldl_inv (fun x : Mat α => ∀ i j, x i j = x j i) _ _ _ ?_ ?_
        · refine foldl_inv (fun x : Mat α => ∀ i j, x i j = x j i) _ _ _ ?_ ?_
          · refine foldl_inv (fun x : Mat α => ∀ i j, x i j = x j i) _ _ _ ?_ ?_
            · refine foldl_inv (fun x : Mat α => ∀ i j, x i j = x j i) _ _ _ (fun _ _ => rfl) ?_
              intro s k _ hs
              exact setDiag_inv s k _ hs
            · intro s p _ hs
              exact setSym_inv s _ _ _ hs
          · intro s p _ hs
            exact setSym_inv _ _ _ _ (setSym_inv s _ _ _ hs)
        · intro s p _ hs
          exact setDiag_inv _ _ _ (setDiag_inv s _ _ hs)
      · intro s p _ hs
        exact setSym_inv _ _ _ _ (setSym_inv s _ _ _ hs)
    · revert i j
      unfold makeGcnst
      refine foldl_inv (fun x : Mat α => ∀ i j, x i j = x j i) _ _ _ ?_ ?_
      · refine foldl_inv (fun x : Mat α => ∀ i j, x i j = x j i) _ _ _ (fun _ _ => rfl) ?_
        intro s p _ hs
        exact setDiag_inv _ _ _ (setDiag_inv s _ _ hs)
      · intro s p _ hs
        exact setSym_inv _ _ _ _ (setSym_inv s _ _ _ hs)

/-- The only panic of `xcals` is the one for diatomics. -/
example (f4 : T4 ℝ) (freq : Vec ℝ) (f3 zmat : T3 ℝ) (rotcon : Vec ℝ) (modes : List Mode) (wila : Mat ℝ) :
    ∃ r, xcals .oblateSymmTop f4 freq f3 zmat rotcon [⟨0, 1⟩] [] modes wila = some r := ⟨_, rfl⟩

/-- C30: fundamentals of a symmetric top computed from the columns equal those computed from the rows. -/
theorem c30_symmetric_top_fundamentals (rotor : Rotor) (f4 : T4 α) (freq : Vec α) (f3 zmat : T3 α)
    (rotcon : Vec α) (fermi1 : List Fermi1) (fermi2 : List Fermi2) (modes : List Mode) (wila : Mat α)
    (x g : Mat α) (e0 : α)
    (h : xcals rotor f4 freq f3 zmat rotcon fermi1 fermi2 modes wila = some (x, g, e0)) :
    makeSymFunds modes freq (fun i j => x j i) (some fun i j => g j i) =
      makeSymFunds modes freq x (some g) := by
  have hx : (fun i j => x j i) = x := by
    funext i j; exact (c30_symmetric_top _ _ _ _ _ _ _ _ _ _ _ _ _ h j i).1
  have hg : (fun i j => g j i) = g := by
    funext i j; exact (c30_symmetric_top _ _ _ _ _ _ _ _ _ _ _ _ _ h j i).2
  rw [hx, hg]

/-- C65: the two components of a degenerate mode have the same constants, exactly and in any arithmetic. -/
theorem c65_components (rotor : Rotor) (f4 : T4 α) (freq : Vec α) (f3 zmat : T3 α) (rotcon : Vec α)
    (fermi1 : List Fermi1) (fermi2 : List Fermi2) (modes : List Mode) (wila : Mat α) (x g : Mat α) (e0 : α)
    (h : xcals rotor f4 freq f3 zmat rotcon fermi1 fermi2 modes wila = some (x, g, e0))
    (hd : (modeNumbers modes).Nodup)
    (p q : Nat × Nat) (k : Nat) (hp : .i2 p.1 p.2 ∈ modes) (hq : .i2 q.1 q.2 ∈ modes) (hk : .i1 k ∈ modes) :
    x k p.2 = x k p.1 ∧ x p.2 k = x p.1 k ∧ x p.2 q.2 = x p.1 q.1 ∧ g p.2 q.2 = g p.1 q.1 := by
  have hd' := distinct_of_modes modes hd
  obtain ⟨-, -, nd, ddd, ddo, gd, go⟩ := xcals_entries _ _ _ _ _ _ _ _ _ _ _ _ _ h (part_nonDeg modes)
    (part_degPairs modes) hd'
  rw [← mem_degPairs] at hp hq
  rw [← mem_nonDeg] at hk
  have sym := c30_symmetric_top _ _ _ _ _ _ _ _ _ _ _ _ _ h
  have e1 : x k p.2 = x k p.1 := (nd k hk p hp).2.trans (nd k hk p hp).1.symm
  refine ⟨e1, ?_, ?_⟩
  · rw [(sym p.2 k).1, (sym p.1 k).1, e1]
  · obtain ⟨a, ha, rfl⟩ := List.mem_iff_getElem.1 hp
    obtain ⟨b, hb, rfl⟩ := List.mem_iff_getElem.1 hq
    have ga : (degPairs modes).getD a (0, 0) = (degPairs modes)[a] := by
      rw [List.getD_eq_getElem?_getD, List.getElem?_eq_getElem ha]; rfl
    have gb : (degPairs modes).getD b (0, 0) = (degPairs modes)[b] := by
      rw [List.getD_eq_getElem?_getD, List.getElem?_eq_getElem hb]; rfl
    rcases lt_trichotomy a b with c | rfl | c
    · obtain ⟨u1, u2⟩ := ddo b a c hb _ _ gb ga
      obtain ⟨v1, v2⟩ := go b a c hb _ _ gb ga
      rw [(sym _ _).1, u2, (sym _ _).2, v2, (sym _ _).1, u1, (sym _ _).2, v1]
      exact ⟨rfl, rfl⟩
    · exact ⟨(ddd _ hp).2.trans (ddd _ hp).1.symm, (gd _ hp).2.trans (gd _ hp).1.symm⟩
    · obtain ⟨u1, u2⟩ := ddo a b c ha _ _ ga gb
      obtain ⟨v1, v2⟩ := go a b c ha _ _ ga gb
      exact ⟨u2.trans u1.symm, v2.trans v1.symm⟩

example : (modeNumbers [.i1 0, .i2 1 2, .i1 3, .i2 4 5]).Nodup := by decide

end

section Real

/-- C33, diagonal constants of non-degenerate and degenerate modes: partial fractions with exactly the
listed fraction left out, if at most one resonance is listed for the overtone. -/
theorem c33_diagonal (rotor : Rotor) (F4 : T4 ℝ) (w : Vec ℝ) (F3 zeta : T3 ℝ) (B : Vec ℝ)
    (f1 : List Fermi1) (f2 : List Fermi2) (modes : List Mode) (wila : Mat ℝ) (x g : Mat ℝ) (e0 : ℝ)
    (h : xcals rotor F4 w F3 zeta B f1 f2 modes wila = some (x, g, e0)) (hd : (modeNumbers modes).Nodup)
    (k : Nat) (hu : ∀ a ∈ f1, ∀ b ∈ f1, a.i = k → b.i = k → a.j = b.j)
    (hw : ∀ l ∈ modeNumbers modes, ⟨k, l⟩ ∉ f1 → w l ≠ 0 ∧ 2 * w k + w l ≠ 0 ∧ 2 * w k - w l ≠ 0) :
    (.i1 k ∈ modes → x k k = xkkSpecL (fun a _ c => ⟨a, c⟩ ∈ f1) (nonDeg modes) w F3 F4 k) ∧
    (∀ k2, .i2 k k2 ∈ modes → x k k = xkkSpecL (fun a _ c => ⟨a, c⟩ ∈ f1)
      (nonDeg modes ++ (degPairs modes).map (·.1)) w F3 F4 k) := by
  have ent := xcals_entries _ _ _ _ _ _ _ _ _ _ _ _ _ h (part_nonDeg modes)
    (part_degPairs modes) (distinct_of_modes modes hd)
  have iff : ∀ l, (makeFermiChecks f1 f2).ifrm1.check k l = true ↔ (⟨k, l⟩ : Fermi1) ∈ f1 :=
    fun l => ⟨ifrm1_listed, fun hm => ifrm1_check_of_unique hm fun b hb e => hu b hb _ hm e rfl⟩
  have fold : ∀ L : List Nat, (∀ l ∈ L, l ∈ modeNumbers modes) →
      L.foldl (diagStep w F3 (makeFermiChecks f1 f2).ifrm1 k) (Arith.lit 0.0) =
        -(L.map fun l => F3 k k l ^ 2 * (1 / (8 * w l) + 1 / (32 * (2 * w k + w l))
          - fracUnless (⟨k, l⟩ ∈ f1) (2 * w k - w l) / 32)).sum := by
    intro L hL
    rw [diag_fold]
    · simp only [iff, lit_real]
      push_cast
      norm_num only
      ring
    · intro l hl hc
      exact hw l (hL l hl) fun hm => by rw [(iff l).2 hm] at hc; cases hc
  have m1 : ∀ l ∈ nonDeg modes, l ∈ modeNumbers modes := by
    intro l hl
    rw [mem_nonDeg] at hl
    exact List.mem_flatMap.2 ⟨_, hl, by simp⟩
  have m2 : ∀ l ∈ (degPairs modes).map (·.1), l ∈ modeNumbers modes := by
    intro l hl
    obtain ⟨p, hp, rfl⟩ := List.mem_map.1 hl
    rw [mem_degPairs] at hp
    exact List.mem_flatMap.2 ⟨_, hp, by simp⟩
  constructor
  · intro hk
    rw [ent.1 k (mem_nonDeg.2 hk)]
    unfold nnDiag xkkSpecL
    rw [fold _ m1, lit_real]
    push_cast
    norm_num only
    ring
  · intro k2 hk
    rw [(ent.2.2.2.1 (k, k2) (mem_degPairs.2 hk)).1]
    unfold ddDiag xkkSpecL
    rw [fold _ m1, fold _ m2, lit_real, List.map_append, List.sum_append]
    push_cast
    norm_num only
    ring

/-- An overtone in exact resonance with a fundamental, listed; the hypotheses of `c33_diagonal` hold. -/
example : let w : Vec ℝ := fun i => if i = 0 then 1000 else if i = 1 then 2000 else 1500
    (∀ a ∈ [(⟨0, 1⟩ : Fermi1)], ∀ b ∈ [(⟨0, 1⟩ : Fermi1)], a.i = 0 → b.i = 0 → a.j = b.j) ∧
    (∀ l ∈ modeNumbers [.i1 0, .i1 1, .i2 2 3], (⟨0, l⟩ : Fermi1) ∉ [⟨0, 1⟩] →
      w l ≠ 0 ∧ 2 * w 0 + w l ≠ 0 ∧ 2 * w 0 - w l ≠ 0) := by
  simp [modeNumbers]
  norm_num

theorem triple_none {f1 : List Fermi1} {f2 : List Fermi2} {w : Vec ℝ} {k l m : Nat}
    (ho : ThirdOnly f1 f2 k l m) :
    fourFracs (Listed f1 f2) w k l m = 1 / (w k + w l + w m) + 1 / (w k - w l + w m)
      - fracUnless (Listed f1 f2 k l m) (w k + w l - w m) + 1 / (-w k + w l + w m) := by
  unfold fourFracs
  rw [frac_neg ho.2.2.1, frac_neg ho.1]

theorem val2_real (L : List Nat) (F3 : T3 ℝ) (w : Vec ℝ) (k l : Nat) :
    xVal2 L F3 w k l = -(L.map fun m => F3 k k m * F3 l l m / (4 * w m)).sum := by
  unfold xVal2
  rw [foldl_sub_real]
  simp only [lit_real]
  push_cast
  norm_num only
  ring

/-- C33, non-degenerate block, the part that holds: right when the listed combination of the three modes,
if any, is `k + l ≈ m`. Missing: the other two combinations, see `c33_nondegenerate_violated`. -/
theorem c33_nondegenerate_partial (rotor : Rotor) (F4 : T4 ℝ) (w : Vec ℝ) (F3 zeta : T3 ℝ) (B : Vec ℝ)
    (f1 : List Fermi1) (f2 : List Fermi2) (modes : List Mode) (wila : Mat ℝ) (x g : Mat ℝ) (e0 : ℝ)
    (h : xcals rotor F4 w F3 zeta B f1 f2 modes wila = some (x, g, e0)) (hd : (modeNumbers modes).Nodup)
    (p q : Nat) (hq : q < p) (k l : Nat) (hk : (nonDeg modes)[p]? = some k) (hl : (nonDeg modes)[q]? = some l)
    (hF : ∀ m ∈ nonDeg modes, F3 k m l = F3 k l m)
    (ho : ∀ m ∈ nonDeg modes, ThirdOnly f1 f2 k l m)
    (hw : ∀ m ∈ nonDeg modes, ¬ Listed f1 f2 k l m → DensOk w k l m) :
    x k l = xnnSpec (Listed f1 f2) (nonDeg modes) w F3 F4 zeta B k l := by
  have ent := xcals_entries _ _ _ _ _ _ _ _ _ _ _ _ _ h (part_nonDeg modes)
    (part_degPairs modes) (distinct_of_modes modes hd)
  obtain ⟨hp, -⟩ := List.getElem?_eq_some_iff.1 hk
  rw [ent.2.1 p q hq hp k l (by simp [List.getD_eq_getElem?_getD, hk])
    (by simp [List.getD_eq_getElem?_getD, hl])]
  unfold nnOff xnnSpec
  rw [val2_real, sumL_real]
  have : (nonDeg modes).map (fun m => -sq (F3 k m l) * nnFac w (makeFermiChecks f1 f2).ifrm2 k l m) =
      (nonDeg modes).map fun m => -(F3 k l m ^ 2 / 8 * fourFracs (Listed f1 f2) w k l m) := by
    refine List.map_congr_left fun m hm => ?_
    have o := ho m hm
    rw [triple_none o, sq_real, hF m hm]
    unfold nnFac
    simp only [dens]
    rw [if_neg (fun c => o.1 (ifrm2_listed c)), if_neg (fun c => o.2.2.1 (ifrm2_listed c))]
    by_cases c : Listed f1 f2 k l m
    · rw [if_pos (o.check_iff.2 c), frac_pos c]
      simp only [one, lit_real]
      push_cast
      norm_num only
      ring
    · rw [if_neg (fun c' => c (o.check_iff.1 c')), if_neg (fun c => o.1 (ifrm2_listed c)),
        if_neg (fun c => o.2.2.1 (ifrm2_listed c)), xDefault_real w k l m (hw m hm c), frac_neg c]
      ring
  rw [this, list_neg_sum]
  simp only [sq_real, lit_real]
  push_cast
  norm_num only
  ring

/-- C33, mixed block, the part that holds. Missing: see `c33_mixed_violated`. -/
theorem c33_mixed_partial (rotor : Rotor) (F4 : T4 ℝ) (w : Vec ℝ) (F3 zeta : T3 ℝ) (B : Vec ℝ)
    (f1 : List Fermi1) (f2 : List Fermi2) (modes : List Mode) (wila : Mat ℝ) (x g : Mat ℝ) (e0 : ℝ)
    (h : xcals rotor F4 w F3 zeta B f1 f2 modes wila = some (x, g, e0)) (hd : (modeNumbers modes).Nodup)
    (k l l2 : Nat) (hk : .i1 k ∈ modes) (hl : .i2 l l2 ∈ modes)
    (ho : ∀ m ∈ (degPairs modes).map (·.1), ThirdOnly f1 f2 k l m)
    (hw : ∀ m ∈ (degPairs modes).map (·.1), ¬ Listed f1 f2 k l m → DensOk w k l m) :
    x k l = xndSpec (Listed f1 f2) (nonDeg modes) ((degPairs modes).map (·.1)) w F3 F4 zeta B k l := by
  have ent := xcals_entries _ _ _ _ _ _ _ _ _ _ _ _ _ h (part_nonDeg modes)
    (part_degPairs modes) (distinct_of_modes modes hd)
  rw [(ent.2.2.1 k (mem_nonDeg.2 hk) (l, l2) (mem_degPairs.2 hl)).1]
  unfold ndOff xndSpec
  rw [val2_real, sumL_real, List.map_map]
  have : (degPairs modes).map (fun p => -sq (F3 k l p.1) * ndFac w (makeFermiChecks f1 f2).ifrm2 k l p.1) =
      (degPairs modes).map fun p => -(F3 k l p.1 ^ 2 / 8 * fourFracs (Listed f1 f2) w k l p.1) := by
    refine List.map_congr_left fun p hp => ?_
    have hm : p.1 ∈ (degPairs modes).map (·.1) := List.mem_map_of_mem hp
    have o := ho p.1 hm
    rw [triple_none o, sq_real]
    unfold ndFac
    simp only [dens]
    rw [if_neg (fun c => o.1 (ifrm2_listed c.2))]
    by_cases c : Listed f1 f2 k l p.1
    · rw [if_pos (o.check_iff.2 c), frac_pos c]
      simp only [one, lit_real]
      push_cast
      norm_num only
      ring
    · rw [if_neg (fun c' => c (o.check_iff.1 c')), if_neg (fun c => o.1 (ifrm2_listed c)),
        if_neg (fun c => o.2.2.1 (ifrm2_listed c)), xDefault_real w k l p.1 (hw p.1 hm c), frac_neg c]
      ring
  rw [this, list_neg_sum]
  simp only [sq_real, lit_real, Function.comp_def]
  push_cast
  norm_num only
  ring

/-- The axis the code selects is the only one the specification allows. -/
theorem axis_unique (rotor : Rotor) (modes : List Mode) (wila : Mat ℝ) (ax : Nat)
    (h : CouplingAxis (rotor = .linear) ((degPairs modes).map (·.2)) wila ax) :
    ax = xcalsIxyz rotor (degPairs modes) wila := by
  obtain ⟨h1, h0⟩ := h
  unfold xcalsIxyz
  split
  · rename_i c
    have : rotor = .linear := by cases rotor <;> simp_all [Rotor.isLinearR]
    have : ax ≠ 0 := fun e => (h0.1 e).1 this
    omega
  · split
    · rename_i c
      obtain ⟨p, hp, c⟩ := List.any_eq_true.1 c
      rw [le_real, abs_real, lit_real] at c
      have : ax ≠ 0 := fun e => by
        have := (h0.1 e).2.1 p.2 (List.mem_map_of_mem hp)
        norm_num at c this
        linarith
      omega
    · rename_i nl c
      have c' : ∀ j ∈ (degPairs modes).map (·.2), 1 / 1000000 < |wila j 3| := by
        intro j hj
        obtain ⟨p, hp, rfl⟩ := List.mem_map.1 hj
        rw [List.any_eq_true] at c
        by_contra hc
        refine c ⟨p, hp, ?_⟩
        rw [le_real, abs_real, lit_real]
        norm_num at hc ⊢
        linarith
      have nl' : ¬ rotor = .linear := by rintro rfl; exact nl rfl
      split
      · rename_i d
        obtain ⟨p, hp, d⟩ := List.any_eq_true.1 d
        rw [le_real, abs_real, lit_real] at d
        refine h0.2 ⟨nl', c', p.2, List.mem_map_of_mem hp, ?_⟩
        norm_num at d ⊢
        linarith
      · rename_i d
        have : ax ≠ 0 := fun e => by
          obtain ⟨-, -, j, hj, h⟩ := h0.1 e
          obtain ⟨p, hp, rfl⟩ := List.mem_map.1 hj
          refine d (List.any_eq_true.2 ⟨p, hp, ?_⟩)
          rw [le_real, abs_real, lit_real]
          norm_num at h ⊢
          linarith
        omega

/-- The y axis for a linear molecule, the x axis for a symmetric top whose second component changes xz only. -/
example : CouplingAxis (Rotor.linear = .linear) ((degPairs [.i2 0 1]).map (·.2)) (fun _ _ => 0) 1 ∧
    CouplingAxis (Rotor.oblateSymmTop = .linear) ((degPairs [.i2 0 1]).map (·.2))
      (fun _ c => if c = 3 then 1 else 0) 0 := by
  constructor
  · exact ⟨le_refl _, by simp⟩
  · refine ⟨by decide, ?_⟩
    simp [degPairs]
    norm_num

/-- C33, degenerate block, the part that holds. Missing: see `c33_degenerate_violated`. -/
theorem c33_degenerate_partial (rotor : Rotor) (F4 : T4 ℝ) (w : Vec ℝ) (F3 zeta : T3 ℝ) (B : Vec ℝ)
    (f1 : List Fermi1) (f2 : List Fermi2) (modes : List Mode) (wila : Mat ℝ) (x g : Mat ℝ) (e0 : ℝ)
    (h : xcals rotor F4 w F3 zeta B f1 f2 modes wila = some (x, g, e0)) (hd : (modeNumbers modes).Nodup)
    (p q : Nat) (hq : q < p) (k l : Nat × Nat) (hk : (degPairs modes)[p]? = some k)
    (hl : (degPairs modes)[q]? = some l) (ax : Nat)
    (hax : CouplingAxis (rotor = .linear) ((degPairs modes).map (·.2)) wila ax)
    (ho : ∀ m ∈ nonDeg modes ++ (degPairs modes).map (·.1), ThirdOnly f1 f2 k.1 l.1 m)
    (hw : ∀ m ∈ nonDeg modes ++ (degPairs modes).map (·.1), ¬ Listed f1 f2 k.1 l.1 m → DensOk w k.1 l.1 m) :
    x k.1 l.1 = xddSpec (Listed f1 f2) (nonDeg modes) ((degPairs modes).map (·.1)) w F3 F4 zeta B
      ax k.1 l.1 l.2 := by
  rw [axis_unique rotor modes wila ax hax]
  have ent := xcals_entries _ _ _ _ _ _ _ _ _ _ _ _ _ h (part_nonDeg modes)
    (part_degPairs modes) (distinct_of_modes modes hd)
  obtain ⟨hp, -⟩ := List.getElem?_eq_some_iff.1 hk
  rw [(ent.2.2.2.2.1 p q hq hp k l (by simp [List.getD_eq_getElem?_getD, hk])
    (by simp [List.getD_eq_getElem?_getD, hl])).1]
  obtain ⟨k, k2⟩ := k
  obtain ⟨l, l2⟩ := l
  dsimp only at *
  unfold ddOff xddSpec
  rw [sumL_real, sumL_real, sumL_real, List.map_map]
  have e1 : (nonDeg modes).map (fun m => ddValu w F3 (makeFermiChecks f1 f2).ifrm2 k l m) =
      (nonDeg modes).map fun m => -(F3 k l m ^ 2 / 16 * fourFracs (Listed f1 f2) w k l m) := by
    refine List.map_congr_left fun m hm => ?_
    have hm' : m ∈ nonDeg modes ++ (degPairs modes).map (·.1) := List.mem_append_left _ hm
    have o := ho m hm'
    rw [triple_none o]
    unfold ddValu
    simp only [dens, sq_real]
    by_cases c : Listed f1 f2 k l m
    · rw [if_pos (o.either_iff.2 c), frac_pos c]
      simp only [one, lit_real]
      push_cast
      norm_num only
      ring
    · rw [if_neg (fun c' => c (o.either_iff.1 c')), if_neg (fun c => o.2.1 (ifrm2_listed c)),
        if_neg (fun c => o.2.2.2.1 (ifrm2_listed c)), frac_neg c]
      have := xDefault_real w k l m (hw m hm' c)
      unfold xDefault at this
      simp only [dens, sq_real, lit_real] at this ⊢
      push_cast at this ⊢
      norm_num only at this ⊢
      have e : -(F3 k l m ^ 2 / 16 * (1 / (w k + w l + w m) + 1 / (w k - w l + w m) - 1 / (w k + w l - w m) +
          1 / (-w k + w l + w m))) = -(F3 k l m ^ 2 / 2 * ((1 / (w k + w l + w m) + 1 / (w k - w l + w m)
            - 1 / (w k + w l - w m) + 1 / (-w k + w l + w m)) / 8)) := by ring
      rw [e, ← this]
      ring
  have e2 : (degPairs modes).map (fun p => ddValus w F3 (makeFermiChecks f1 f2).ifrm2 k l p.1) =
      (degPairs modes).map fun p => -(F3 k l p.1 ^ 2 / 8 * fourFracs (Listed f1 f2) w k l p.1) := by
    refine List.map_congr_left fun p hp => ?_
    have hm' : p.1 ∈ nonDeg modes ++ (degPairs modes).map (·.1) :=
      List.mem_append_right _ (List.mem_map_of_mem hp)
    have o := ho p.1 hm'
    rw [triple_none o]
    unfold ddValus
    simp only [dens, sq_real]
    rw [if_neg (fun c => o.1 (ifrm2_listed c.2)), if_neg (fun c => o.2.2.1 (ifrm2_listed c.2))]
    by_cases c : Listed f1 f2 k l p.1
    · rw [if_pos (o.check_iff.2 c), frac_pos c]
      simp only [one, lit_real]
      push_cast
      norm_num only
      ring
    · rw [if_neg (fun c' => c (o.check_iff.1 c')), if_neg (fun c => o.1 (ifrm2_listed c)),
        if_neg (fun c => o.2.2.1 (ifrm2_listed c)), frac_neg c]
      have := xDefault_real w k l p.1 (hw p.1 hm' c)
      unfold xDefault at this
      simp only [dens, sq_real, lit_real] at this ⊢
      push_cast at this ⊢
      norm_num only at this ⊢
      have e : -(F3 k l p.1 ^ 2 / 8 * (1 / (w k + w l + w p.1) + 1 / (w k - w l + w p.1) - 1 / (w k + w l - w p.1) +
          1 / (-w k + w l + w p.1))) = -(F3 k l p.1 ^ 2 * ((1 / (w k + w l + w p.1) + 1 / (w k - w l + w p.1)
            - 1 / (w k + w l - w p.1) + 1 / (-w k + w l + w p.1)) / 8)) := by ring
      rw [e, ← this]
      ring
  rw [e1, e2, list_neg_sum, list_neg_sum, list_neg_sum]
  simp only [sq_real, lit_real, Function.comp_def]
  push_cast
  norm_num only
  ring

/-- A listed resonance `w_2 + w_1 ≈ w_0` among degenerate modes satisfies the hypotheses. -/
example : let w : Vec ℝ := fun i => if i = 0 then 2000 else if i = 1 then 1100 else 900
    (∀ m ∈ nonDeg [.i1 0, .i2 1 3, .i2 2 4] ++ (degPairs [.i1 0, .i2 1 3, .i2 2 4]).map (·.1),
      ThirdOnly [] [⟨2, 1, 0⟩] 2 1 m) ∧
    (∀ m ∈ nonDeg [.i1 0, .i2 1 3, .i2 2 4] ++ (degPairs [.i1 0, .i2 1 3, .i2 2 4]).map (·.1),
      ¬ Listed [] [⟨2, 1, 0⟩] 2 1 m → DensOk w 2 1 m) ∧
    Listed [] [⟨2, 1, 0⟩] 2 1 0 := by
  refine ⟨?_, ?_, by decide⟩
  · simp [nonDeg, degPairs, ThirdOnly, Listed]
  · simp [nonDeg, degPairs, DensOk, Listed]
    norm_num

/-- C33 is violated in the non-degenerate block: a listed combination `w_l + w_m ≈ w_k` of three different
modes gets the formula for `2 w_l ≈ w_k`. -/
theorem c33_nondegenerate_violated : ∃ (F4 : T4 ℝ) (w : Vec ℝ) (F3 zeta : T3 ℝ) (B : Vec ℝ)
    (f2 : List Fermi2) (modes : List Mode) (wila : Mat ℝ) (x g : Mat ℝ) (e0 : ℝ),
    xcals .oblateSymmTop F4 w F3 zeta B [] f2 modes wila = some (x, g, e0) ∧ (modeNumbers modes).Nodup ∧
    (∀ m ∈ nonDeg modes, DensOk w 1 0 m ∧ OneOfThree (Listed [] f2) 1 0 m) ∧
    nonDeg modes = [0, 1, 2] ∧
    x 1 0 ≠ xnnSpec (Listed [] f2) (nonDeg modes) w F3 F4 zeta B 1 0 := by
  obtain ⟨⟨x, g, e0⟩, h⟩ : ∃ r, xcals .oblateSymmTop (fun _ _ _ _ => (0 : ℝ))
    (fun i => if i = 0 then 1000 else if i = 1 then 2500 else 1600)
    (fun a b c => if a ≠ b ∧ b ≠ c ∧ a ≠ c then 100 else 0) (fun _ _ _ => 0) (fun _ => 0) [] [⟨0, 2, 1⟩]
    [.i1 0, .i1 1, .i1 2] (fun _ _ => 0) = some r := ⟨_, rfl⟩
  refine ⟨_, _, _, _, _, _, _, _, x, g, e0, h, by decide, ?_, by decide, ?_⟩
  · simp [nonDeg, DensOk, OneOfThree, Listed]
    norm_num
  · have ent := (xcals_entries _ _ _ _ _ _ _ _ _ _ _ _ _ h (part_nonDeg _)
      (part_degPairs _) (distinct_of_modes _ (by decide))).2.1 1 0 (by decide) (by decide) 1 0 rfl rfl
    rw [ent]
    simp [nonDeg, nnOff, xnnSpec, xVal2, sumL_real, nnFac, xDefault, dens, sq_real, lit_real, one, fourFracs,
      fracUnless, Listed, makeFermiChecks, fermiStep2, chkSet, HMap.insert, HMap.empty, HMap.check]
    norm_num

/-- C33 is violated in the mixed block: for a listed `w_l + w_m ≈ w_k` the fraction `1/(w_k + w_l - w_m)`
is kept with the wrong sign. -/
theorem c33_mixed_violated : ∃ (F4 : T4 ℝ) (w : Vec ℝ) (F3 zeta : T3 ℝ) (B : Vec ℝ)
    (f2 : List Fermi2) (modes : List Mode) (wila : Mat ℝ) (x g : Mat ℝ) (e0 : ℝ),
    xcals .oblateSymmTop F4 w F3 zeta B [] f2 modes wila = some (x, g, e0) ∧ (modeNumbers modes).Nodup ∧
    (∀ m ∈ (degPairs modes).map (·.1), DensOk w 0 1 m ∧ OneOfThree (Listed [] f2) 0 1 m) ∧
    .i1 0 ∈ modes ∧ .i2 1 2 ∈ modes ∧
    x 0 1 ≠ xndSpec (Listed [] f2) (nonDeg modes) ((degPairs modes).map (·.1)) w F3 F4 zeta B 0 1 := by
  obtain ⟨⟨x, g, e0⟩, h⟩ : ∃ r, xcals .oblateSymmTop (fun _ _ _ _ => (0 : ℝ))
    (fun i => if i = 0 then 2500 else if i = 1 ∨ i = 2 then 1600 else 1000)
    (fun a b c => if a = 0 ∧ b = 1 ∧ c = 3 then 100 else 0) (fun _ _ _ => 0) (fun _ => 0) [] [⟨1, 3, 0⟩]
    [.i1 0, .i2 1 2, .i2 3 4] (fun _ _ => 0) = some r := ⟨_, rfl⟩
  refine ⟨_, _, _, _, _, _, _, _, x, g, e0, h, by decide, ?_, by decide, by decide, ?_⟩
  · simp [degPairs, DensOk, OneOfThree, Listed]
    norm_num
  · have ent := ((xcals_entries _ _ _ _ _ _ _ _ _ _ _ _ _ h (part_nonDeg _)
      (part_degPairs _) (distinct_of_modes _ (by decide))).2.2.1 0 (by decide) (1, 2) (by decide)).1
    rw [ent]
    simp [nonDeg, degPairs, ndOff, xndSpec, xVal2, sumL_real, ndFac, xDefault, dens, sq_real, lit_real, one, fourFracs,
      fracUnless, Listed, makeFermiChecks, fermiStep2, chkSet, HMap.insert, HMap.empty, HMap.check]
    norm_num

/-- C33 is violated in the degenerate block: for a listed `w_m + w_k ≈ w_l` the fraction
`1/(w_k + w_l - w_m)` is kept with the wrong sign. -/
theorem c33_degenerate_violated : ∃ (F4 : T4 ℝ) (w : Vec ℝ) (F3 zeta : T3 ℝ) (B : Vec ℝ)
    (f2 : List Fermi2) (modes : List Mode) (wila : Mat ℝ) (x g : Mat ℝ) (e0 : ℝ),
    xcals .oblateSymmTop F4 w F3 zeta B [] f2 modes wila = some (x, g, e0) ∧ (modeNumbers modes).Nodup ∧
    (∀ m ∈ nonDeg modes ++ (degPairs modes).map (·.1), DensOk w 3 1 m ∧ OneOfThree (Listed [] f2) 3 1 m) ∧
    degPairs modes = [(1, 2), (3, 4)] ∧
    ∀ ax, x 3 1 ≠ xddSpec (Listed [] f2) (nonDeg modes) ((degPairs modes).map (·.1)) w F3 F4 zeta B
      ax 3 1 2 := by
  obtain ⟨⟨x, g, e0⟩, h⟩ : ∃ r, xcals .oblateSymmTop (fun _ _ _ _ => (0 : ℝ))
    (fun i => if i = 0 then 1600 else if i = 1 ∨ i = 2 then 2500 else 1000)
    (fun a b c => if a = 3 ∧ b = 1 ∧ c = 0 then 100 else 0) (fun _ _ _ => 0) (fun _ => 0) [] [⟨0, 3, 1⟩]
    [.i1 0, .i2 1 2, .i2 3 4] (fun _ _ => 0) = some r := ⟨_, rfl⟩
  refine ⟨_, _, _, _, _, _, _, _, x, g, e0, h, by decide, ?_, by decide, ?_⟩
  · simp [nonDeg, degPairs, DensOk, OneOfThree, Listed]
    norm_num
  · have ent := ((xcals_entries _ _ _ _ _ _ _ _ _ _ _ _ _ h (part_nonDeg _)
      (part_degPairs _) (distinct_of_modes _ (by decide))).2.2.2.2.1 1 0 (by decide) (by decide) (3, 4) (1, 2)
        rfl rfl).1
    rw [ent]
    simp [nonDeg, degPairs, ddOff, xddSpec, xVal2, sumL_real, ddValu, ddValus, dens, sq_real, lit_real, one, fourFracs,
      fracUnless, Listed, makeFermiChecks, fermiStep2, chkSet, HMap.insert, HMap.empty, HMap.check, HMap.checkEither]
    norm_num

/-- C66, the part that holds: without listed resonances of the modes concerned the g constants are the
partial fractions; on the diagonal, a listed resonance with a non-degenerate mode is also right.
Missing: see `c66_diagonal_violated` and `c66_offdiagonal_violated`. -/
theorem c66_diagonal_partial (rotor : Rotor) (F4 : T4 ℝ) (w : Vec ℝ) (F3 zeta : T3 ℝ) (B : Vec ℝ)
    (f1 : List Fermi1) (f2 : List Fermi2) (modes : List Mode) (wila : Mat ℝ) (x g : Mat ℝ) (e0 : ℝ)
    (h : xcals rotor F4 w F3 zeta B f1 f2 modes wila = some (x, g, e0)) (hd : (modeNumbers modes).Nodup)
    (k k2 : Nat) (hk : .i2 k k2 ∈ modes)
    (hu : ∀ a ∈ f1, ∀ b ∈ f1, a.i = k → b.i = k → a.j = b.j)
    (hn : ∀ l ∈ (degPairs modes).map (·.1), ⟨k, l⟩ ∉ f1)
    (hw : ∀ l ∈ modeNumbers modes, ⟨k, l⟩ ∉ f1 → w l ≠ 0 ∧ 2 * w k + w l ≠ 0 ∧ 2 * w k - w l ≠ 0) :
    g k k = gkkSpec (fun a _ c => ⟨a, c⟩ ∈ f1) (nonDeg modes) ((degPairs modes).map (·.1)) w F3 F4 zeta B
      k k2 := by
  have ent := xcals_entries _ _ _ _ _ _ _ _ _ _ _ _ _ h (part_nonDeg modes)
    (part_degPairs modes) (distinct_of_modes modes hd)
  have iff : ∀ l, (makeFermiChecks f1 f2).ifrm1.check k l = true ↔ (⟨k, l⟩ : Fermi1) ∈ f1 :=
    fun l => ⟨ifrm1_listed, fun hm => ifrm1_check_of_unique hm fun b hb e => hu b hb _ hm e rfl⟩
  have m1 : ∀ l ∈ nonDeg modes, l ∈ modeNumbers modes := by
    intro l hl
    rw [mem_nonDeg] at hl
    exact List.mem_flatMap.2 ⟨_, hl, by simp⟩
  have m2 : ∀ p ∈ degPairs modes, p.1 ∈ modeNumbers modes := by
    intro p hp
    rw [mem_degPairs] at hp
    exact List.mem_flatMap.2 ⟨_, hp, by simp⟩
  rw [(ent.2.2.2.2.2.1 (k, k2) (mem_degPairs.2 hk)).1]
  unfold gDiag gkkSpec
  rw [sumL_real, sumL_real, List.map_map]
  have e1 : (nonDeg modes).map (fun l => gDiagValu w F3 (makeFermiChecks f1 f2).ifrm1 k l) =
      (nonDeg modes).map fun l => -(F3 k k l ^ 2 / 32 *
        (fracUnless (⟨k, l⟩ ∈ f1) (2 * w k - w l) - 1 / (2 * w k + w l))) := by
    refine List.map_congr_left fun l hl => ?_
    unfold gDiagValu
    simp only [sq_real, lit_real]
    push_cast
    norm_num only
    by_cases c : (⟨k, l⟩ : Fermi1) ∈ f1
    · rw [if_pos ((iff l).2 c), frac_pos c, ← div_div]
      ring
    · rw [if_neg (fun c' => c ((iff l).1 c')), frac_neg c]
      obtain ⟨h1, h2, h3⟩ := hw l (m1 l hl) c
      have := e0kkl_fractions (w k) (w l) h2 h3
      have e : -(F3 k k l ^ 2 * w l) / (16 * (4 * w k ^ 2 - w l * w l)) =
          -(F3 k k l ^ 2 * 4 * (w l / (64 * (4 * w k ^ 2 - w l ^ 2)))) := by
        rw [pow_two (w l)]
        generalize 4 * w k ^ 2 - w l * w l = D
        rw [div_eq_mul_inv, div_eq_mul_inv, mul_inv, mul_inv]
        ring
      rw [e, this]
      ring
  have e2 : (degPairs modes).map (fun p => gDiagValus w F3 (makeFermiChecks f1 f2).ifrm1 k p.1) =
      (degPairs modes).map fun p => F3 k k p.1 ^ 2 * (1 / (8 * w p.1) +
        fracUnless (⟨k, p.1⟩ ∈ f1) (2 * w k - w p.1) / 32 - 1 / (32 * (2 * w k + w p.1))) := by
    refine List.map_congr_left fun p hp => ?_
    unfold gDiagValus
    simp only [sq_real, lit_real, one]
    push_cast
    norm_num only
    have c := hn p.1 (List.mem_map_of_mem hp)
    rw [if_neg (fun c' => c ((iff _).1 c')), frac_neg c]
    obtain ⟨h1, h2, h3⟩ := hw p.1 (m2 p hp) c
    rw [← gdiag_fractions _ _ h1 h2 h3, mul_div_assoc, pow_two (w p.1)]
  rw [e1, e2, list_neg_sum]
  simp only [sq_real, lit_real, Function.comp_def]
  push_cast
  norm_num only
  ring

/-- A listed resonance of a degenerate mode with a non-degenerate one satisfies the hypotheses. -/
example : let w : Vec ℝ := fun i => if i = 0 then 2000 else if i = 1 ∨ i = 2 then 1000 else 1500
    (∀ l ∈ (degPairs [.i1 0, .i2 1 2, .i2 3 4]).map (·.1), (⟨1, l⟩ : Fermi1) ∉ [⟨1, 0⟩]) ∧
    (∀ l ∈ modeNumbers [.i1 0, .i2 1 2, .i2 3 4], (⟨1, l⟩ : Fermi1) ∉ [⟨1, 0⟩] →
      w l ≠ 0 ∧ 2 * w 1 + w l ≠ 0 ∧ 2 * w 1 - w l ≠ 0) := by
  simp [modeNumbers, degPairs]
  norm_num

/-- C66, off-diagonal, the part that holds: no listed combination of the modes concerned. -/
theorem c66_offdiagonal_partial (rotor : Rotor) (F4 : T4 ℝ) (w : Vec ℝ) (F3 zeta : T3 ℝ) (B : Vec ℝ)
    (f1 : List Fermi1) (f2 : List Fermi2) (modes : List Mode) (wila : Mat ℝ) (x g : Mat ℝ) (e0 : ℝ)
    (h : xcals rotor F4 w F3 zeta B f1 f2 modes wila = some (x, g, e0)) (hd : (modeNumbers modes).Nodup)
    (p q : Nat) (hq : q < p) (k l : Nat × Nat) (hk : (degPairs modes)[p]? = some k)
    (hl : (degPairs modes)[q]? = some l) (ax : Nat)
    (hax : CouplingAxis (rotor = .linear) ((degPairs modes).map (·.2)) wila ax)
    (ho : ∀ m ∈ nonDeg modes ++ (degPairs modes).map (·.1), ¬ Listed f1 f2 k.1 l.1 m ∧
      ¬ Listed f1 f2 k.1 m l.1 ∧ ¬ Listed f1 f2 l.1 m k.1)
    (hw : ∀ m ∈ nonDeg modes ++ (degPairs modes).map (·.1), DensOk w k.1 l.1 m) :
    g k.1 l.1 = gklSpec (Listed f1 f2) (nonDeg modes) ((degPairs modes).map (·.1)) w F3 zeta B
      ax k.1 k.2 l.1 l.2 := by
  rw [axis_unique rotor modes wila ax hax]
  have ent := xcals_entries _ _ _ _ _ _ _ _ _ _ _ _ _ h (part_nonDeg modes)
    (part_degPairs modes) (distinct_of_modes modes hd)
  obtain ⟨hp, -⟩ := List.getElem?_eq_some_iff.1 hk
  rw [(ent.2.2.2.2.2.2 p q hq hp k l (by simp [List.getD_eq_getElem?_getD, hk])
    (by simp [List.getD_eq_getElem?_getD, hl])).1]
  obtain ⟨k, k2⟩ := k
  obtain ⟨l, l2⟩ := l
  dsimp only at *
  unfold gOff gklSpec
  rw [sumL_real, sumL_real, List.map_map]
  have gf : ∀ m ∈ nonDeg modes ++ (degPairs modes).map (·.1), gFracs (Listed f1 f2) w k l m =
      -(1 / (w k + w l + w m)) + 1 / (w k - w l + w m) + 1 / (w k + w l - w m) + 1 / (-w k + w l + w m) := by
    intro m hm
    obtain ⟨o1, o2, o3⟩ := ho m hm
    unfold gFracs
    rw [frac_neg o1, frac_neg o2, frac_neg o3]
  have e1 : (nonDeg modes).map (fun m => gOffValu w F3 (makeFermiChecks f1 f2).ifrm2 k l m) =
      (nonDeg modes).map fun m => -(F3 k l m ^ 2 / 16 * gFracs (Listed f1 f2) w k l m) := by
    refine List.map_congr_left fun m hm => ?_
    have hm' : m ∈ nonDeg modes ++ (degPairs modes).map (·.1) := List.mem_append_left _ hm
    obtain ⟨o1, o2, o3⟩ := ho m hm'
    obtain ⟨h1, h2, h3, h4⟩ := hw m hm'
    rw [gf m hm']
    unfold gOffValu
    simp only [dens, sq_real]
    rw [if_neg (fun c => o1 (listed_swap (ifrm2_either_listed c))),
      if_neg (fun c => o3 (listed_swap (ifrm2_listed c))),
      if_neg (fun c => o2 (listed_swap (ifrm2_listed c))), mul_div_assoc, g_fractions _ _ _ h1 h2 h3 h4]
    simp only [lit_real]
    push_cast
    norm_num only
    ring
  have e2 : (degPairs modes).map (fun p => gOffValus w F3 (makeFermiChecks f1 f2).ifrm2 k l p.1) =
      (degPairs modes).map fun p => F3 k l p.1 ^ 2 / 8 * gFracs (Listed f1 f2) w k l p.1 := by
    refine List.map_congr_left fun p hp => ?_
    have hm' : p.1 ∈ nonDeg modes ++ (degPairs modes).map (·.1) :=
      List.mem_append_right _ (List.mem_map_of_mem hp)
    obtain ⟨o1, o2, o3⟩ := ho p.1 hm'
    obtain ⟨h1, h2, h3, h4⟩ := hw p.1 hm'
    rw [gf p.1 hm']
    unfold gOffValus
    simp only [dens, sq_real]
    rw [if_neg (fun c => o3 (ifrm2_listed c)), if_neg (fun c => o2 (ifrm2_listed c)),
      if_neg (fun c => o1 (listed_swap (ifrm2_listed c))),
      if_neg (fun c => o3 (listed_swap (ifrm2_listed c))),
      if_neg (fun c => o2 (listed_swap (ifrm2_listed c))), g_fractions _ _ _ h1 h2 h3 h4]
    ring
  rw [e1, e2, list_neg_sum]
  simp only [sq_real, lit_real, Function.comp_def]
  push_cast
  norm_num only
  ring

/-- Two degenerate modes and a non-degenerate one without resonances satisfy the hypotheses. -/
example : let w : Vec ℝ := fun i => if i = 0 then 3000 else if i = 1 ∨ i = 2 then 1000 else 1400
    ∀ m ∈ nonDeg [.i1 0, .i2 1 2, .i2 3 4] ++ (degPairs [.i1 0, .i2 1 2, .i2 3 4]).map (·.1),
      DensOk w 3 1 m ∧ ¬ Listed [] [] 3 1 m ∧ ¬ Listed [] [] 3 m 1 ∧ ¬ Listed [] [] 1 m 3 := by
  simp [degPairs, nonDeg, DensOk, Listed]
  norm_num

/-- C66 is violated on the diagonal by a listed resonance between two degenerate modes: both fractions
that should stay have the wrong sign or value. -/
theorem c66_diagonal_violated : ∃ (F4 : T4 ℝ) (w : Vec ℝ) (F3 zeta : T3 ℝ) (B : Vec ℝ)
    (f1 : List Fermi1) (modes : List Mode) (wila : Mat ℝ) (x g : Mat ℝ) (e0 : ℝ),
    xcals .oblateSymmTop F4 w F3 zeta B f1 [] modes wila = some (x, g, e0) ∧ (modeNumbers modes).Nodup ∧
    .i2 0 1 ∈ modes ∧
    (∀ l ∈ modeNumbers modes, w l ≠ 0 ∧ 2 * w 0 + w l ≠ 0 ∧ 2 * w 0 - w l ≠ 0) ∧
    g 0 0 ≠ gkkSpec (fun a _ c => ⟨a, c⟩ ∈ f1) (nonDeg modes) ((degPairs modes).map (·.1)) w F3 F4 zeta B
      0 1 := by
  obtain ⟨⟨x, g, e0⟩, h⟩ : ∃ r, xcals .oblateSymmTop (fun _ _ _ _ => (0 : ℝ))
    (fun i => if i = 0 ∨ i = 1 then 1000 else 1900)
    (fun a b c => if a = 0 ∧ b = 0 ∧ c = 2 then 100 else 0) (fun _ _ _ => 0) (fun _ => 0) [⟨0, 2⟩] []
    [.i2 0 1, .i2 2 3] (fun _ _ => 0) = some r := ⟨_, rfl⟩
  refine ⟨_, _, _, _, _, _, _, _, x, g, e0, h, by decide, by decide, ?_, ?_⟩
  · simp [modeNumbers]
    norm_num
  · have ent := ((xcals_entries _ _ _ _ _ _ _ _ _ _ _ _ _ h (part_nonDeg _)
      (part_degPairs _) (distinct_of_modes _ (by decide))).2.2.2.2.2.1 (0, 1) (by decide)).1
    rw [ent]
    simp [nonDeg, degPairs, gDiag, gkkSpec, gDiagValus, sumL_real, sq_real, lit_real, one,
      fracUnless, makeFermiChecks, fermiStep1, chkSet, HMap.insert, HMap.empty, HMap.check]
    norm_num

/-- C66 is violated off the diagonal by a listed resonance: the remaining fractions have wrong signs and
twice the weight. -/
theorem c66_offdiagonal_violated : ∃ (F4 : T4 ℝ) (w : Vec ℝ) (F3 zeta : T3 ℝ) (B : Vec ℝ)
    (f2 : List Fermi2) (modes : List Mode) (wila : Mat ℝ) (x g : Mat ℝ) (e0 : ℝ),
    xcals .oblateSymmTop F4 w F3 zeta B [] f2 modes wila = some (x, g, e0) ∧ (modeNumbers modes).Nodup ∧
    (∀ m ∈ nonDeg modes ++ (degPairs modes).map (·.1), DensOk w 3 1 m ∧ OneOfThree (Listed [] f2) 3 1 m) ∧
    degPairs modes = [(1, 2), (3, 4)] ∧
    ∀ ax, g 3 1 ≠ gklSpec (Listed [] f2) (nonDeg modes) ((degPairs modes).map (·.1)) w F3 zeta B
      ax 3 4 1 2 := by
  obtain ⟨⟨x, g, e0⟩, h⟩ : ∃ r, xcals .oblateSymmTop (fun _ _ _ _ => (0 : ℝ))
    (fun i => if i = 0 then 2500 else if i = 1 ∨ i = 2 then 1600 else 1000)
    (fun a b c => if a = 3 ∧ b = 1 ∧ c = 0 then 100 else 0) (fun _ _ _ => 0) (fun _ => 0) [] [⟨3, 1, 0⟩]
    [.i1 0, .i2 1 2, .i2 3 4] (fun _ _ => 0) = some r := ⟨_, rfl⟩
  refine ⟨_, _, _, _, _, _, _, _, x, g, e0, h, by decide, ?_, by decide, ?_⟩
  · simp [nonDeg, degPairs, DensOk, OneOfThree, Listed]
    norm_num
  · have ent := ((xcals_entries _ _ _ _ _ _ _ _ _ _ _ _ _ h (part_nonDeg _)
      (part_degPairs _) (distinct_of_modes _ (by decide))).2.2.2.2.2.2 1 0 (by decide) (by decide) (3, 4) (1, 2)
        rfl rfl).1
    rw [ent]
    simp [nonDeg, degPairs, gOff, gklSpec, gFracs, sumL_real, gOffValu, gOffValus, dens, sq_real, lit_real, one,
      fracUnless, Listed, makeFermiChecks, fermiStep2, chkSet, HMap.insert, HMap.empty, HMap.check, HMap.checkEither]
    norm_num

end Real

end Verif
