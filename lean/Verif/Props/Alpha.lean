import Verif.Model.Alpha
import Verif.Lemmas.Fermi
import Verif.Lemmas.State
import Verif.Props.Resonance
import Mathlib.Tactic.FieldSimp
import Mathlib.Tactic.LinearCombination

/-! Properties of the vibration-rotation constants: C28, C29, C40 (first part), C41. -/

namespace Verif

/-! ## The two forms of the Coriolis term -/

/-- The regular form used for a resonant pair. -/
noncomputable def regularTerm (z wi wj : ℝ) : ℝ := -(z ^ 2 * (wi - wj) ^ 2 / (2 * (wj * (wi + wj))))

/-- The perturbation-theory form, singular for `wi = wj`. -/
noncomputable def singularTerm (z wi wj : ℝ) : ℝ := z ^ 2 * (3 * wi ^ 2 + wj ^ 2) / (wi ^ 2 - wj ^ 2)

theorem corReg_real (s z wi wj : ℝ) : corReg s z wi wj = s + regularTerm z wi wj := by
  unfold corReg regularTerm
  simp only [lit_real, sq_real]
  rw [show ((0.5 : ℚ) : ℝ) = 1 / 2 by norm_num]
  have : (1 / 2 : ℝ) * z ^ 2 * (wi - wj) ^ 2 / (wj * (wi + wj)) =
      z ^ 2 * (wi - wj) ^ 2 / (2 * (wj * (wi + wj))) := by
    rw [mul_assoc, mul_div_assoc, one_div, inv_mul_eq_div, div_div, mul_comm (wj * (wi + wj)) 2]
  rw [this]; ring

theorem corFull_real (s z wi wj : ℝ) : corFull s z wi wj = s + singularTerm z wi wj := by
  unfold corFull singularTerm
  simp only [lit_real, sq_real]
  norm_num

theorem corFull'_real (s z wi wj : ℝ) : corFull' s z wi wj = s + singularTerm z wi wj := by
  unfold corFull' singularTerm
  simp only [lit_real, sq_real]
  rw [show ((3.0 : ℚ) : ℝ) = 3 by norm_num]
  ring

open Classical in
/-- The Coriolis term of a pair: regular if resonant, singular otherwise. -/
noncomputable def coriolisTerm (res : Prop) (z wi wj : ℝ) : ℝ :=
  if res then regularTerm z wi wj else singularTerm z wi wj

theorem corIf (b : Bool) (res : Prop) (s z wi wj : ℝ) (h : b = true ↔ res) :
    (if b = true then corReg s z wi wj else corFull' s z wi wj) = s + coriolisTerm res z wi wj := by
  unfold coriolisTerm
  by_cases hb : b = true
  · rw [if_pos hb, if_pos (h.1 hb), corReg_real]
  · rw [if_neg hb, if_neg (fun e => hb (h.2 e)), corFull'_real]

/-! ## C41 -/

/-- C41: the singular form is the regular form plus `ζ² (wi + wj)² / (2 wj (wi - wj))`. -/
theorem c41_identity (z wi wj : ℝ) (hj : wj ≠ 0) (hs : wi + wj ≠ 0) (hd : wi - wj ≠ 0) :
    singularTerm z wi wj = regularTerm z wi wj + z ^ 2 * ((wi + wj) ^ 2 / (2 * wj * (wi - wj))) := by
  unfold singularTerm regularTerm
  have h : wi ^ 2 - wj ^ 2 ≠ 0 := by
    rw [show wi ^ 2 - wj ^ 2 = (wi + wj) * (wi - wj) by ring]; exact mul_ne_zero hs hd
  field_simp
  ring

theorem foldl_if_add {X : Type} (l : List X) (f : X → ℝ) (step : ℝ → X → ℝ)
    (h : ∀ s, ∀ x ∈ l, step s x = s + f x) (s : ℝ) : l.foldl step s = s + (l.map f).sum := by
  induction l generalizing s with
  | nil => simp
  | cons a l ih =>
    rw [List.foldl_cons, h _ _ (by simp), ih (fun s x hx => h s x (by simp [hx])), List.map_cons,
      List.sum_cons]
    ring

theorem isAxis_iff (t : Option Nat) (x : Nat) : isAxis t x = true ↔ t = some x := by
  simp [isAxis]

/-! ## C28 -/

/-- The vibration-rotation constant of mode `i` about axis `x`, given which pairs count as resonant. -/
noncomputable def alphaFormula (nvib : Nat) (rotcon primat freq : Vec ℝ) (wila : Mat ℝ) (zmat f3 : T3 ℝ)
    (res : Nat → Nat → Nat → Prop) (i x : Nat) : ℝ :=
  2 * rotcon x ^ 2 / freq i *
    (3 / 4 * ∑ y ∈ Finset.range 3, wila i (pairIdx x y) ^ 2 / primat y +
      ∑ j ∈ Finset.range nvib with j ≠ i, coriolisTerm (res i j x) (zmat i j x) (freq i) (freq j) +
      0.086112 * ∑ j ∈ Finset.range nvib, wila j (pairIdx x x) * f3 i i j * freq i / freq j ^ (3 / 2 : ℝ))

theorem ioff_diag (x : Nat) : ioff (x + 2) - 1 = pairIdx x x := by
  unfold pairIdx ioff
  rw [Nat.max_self, Nat.min_self]
  have e : (x + 2 - 1) * (x + 2) = (x + 1 - 1) * (x + 1) + 2 * (x + 1) := by
    simp only [Nat.add_sub_cancel, show x + 2 - 1 = x + 1 by omega]; ring
  rw [e, Nat.add_mul_div_left _ _ (by norm_num)]
  omega

theorem list_sum_filter (n i : Nat) (f : Nat → ℝ) :
    ((List.range n).map fun j => if j ≠ i then f j else 0).sum =
      ∑ j ∈ Finset.range n with j ≠ i, f j := by
  rw [Finset.sum_filter]
  induction n with
  | zero => simp
  | succ n ih =>
    rw [List.range_succ, List.map_append, List.sum_append, ih, Finset.sum_range_succ]
    simp

/-- The model of `alpha` in closed form, with the resonances the lookup table knows about. -/
theorem alpha_closed (nvib : Nat) (rotcon primat freq : Vec ℝ) (wila : Mat ℝ) (zmat f3 : T3 ℝ)
    (cs : List Coriolis) (i x : Nat) :
    alpha nvib rotcon primat freq wila zmat f3 cs i x =
      alphaFormula nvib rotcon primat freq wila zmat f3
        (fun i j x => makeIcorol cs (i, j) = some x) i x := by
  unfold alpha alphaEntry alphaFormula
  simp only
  rw [foldl_if_add (List.range nvib)
    (fun j => if j ≠ i then
      coriolisTerm (makeIcorol cs (i, j) = some x) (zmat i j x) (freq i) (freq j) else 0)]
  · rw [list_sum_filter]
    simp only [sumTo_real, sq_real, lit_real, powf15_real, ioff_diag, ALPHA_CONST]
    have e : ∀ y, ioff (max x y + 1) + min x y = pairIdx x y := fun y => rfl
    simp only [e]
    norm_num
    left
    ring
  · intro s j _
    by_cases hj : j ≠ i
    · rw [if_pos hj, if_pos hj]
      unfold coriolisTerm
      by_cases hr : makeIcorol cs (i, j) = some x
      · rw [if_pos ((isAxis_iff ..).2 hr), if_pos hr, corReg_real]
      · rw [if_neg (fun h => hr ((isAxis_iff ..).1 h)), if_neg hr, corFull_real]
    · rw [if_neg hj, if_neg hj, add_zero]

/-- C28: the lookup built from the list of Coriolis resonances is symmetric in the two modes and only ever
returns a listed axis. -/
theorem c28_lookup (cs : List Coriolis) (i j : Nat) :
    makeIcorol cs (i, j) = makeIcorol cs (j, i) ∧
    (∀ x, makeIcorol cs (i, j) = some x → (⟨i, j, x⟩ : Coriolis) ∈ cs ∨ (⟨j, i, x⟩ : Coriolis) ∈ cs) ∧
    (makeIcorol cs (i, j) = none ↔ ∀ c ∈ cs, ¬ (c.i = i ∧ c.j = j) ∧ ¬ (c.i = j ∧ c.j = i)) := by
  refine ⟨icorol_symm cs i j, fun x h => icorol_listed h, ?_⟩
  constructor
  · intro h c hc
    have hn : ¬ ∃ x, (⟨i, j, x⟩ : Coriolis) ∈ cs ∨ (⟨j, i, x⟩ : Coriolis) ∈ cs := fun e => by
      obtain ⟨x, hx⟩ := icorol_some e
      rw [h] at hx; cases hx
    obtain ⟨ci, cj, cx⟩ := c
    refine ⟨?_, ?_⟩
    · rintro ⟨rfl, rfl⟩; exact hn ⟨cx, .inl hc⟩
    · rintro ⟨rfl, rfl⟩; exact hn ⟨cx, .inr hc⟩
  · intro h
    cases e : makeIcorol cs (i, j) with
    | none => rfl
    | some x =>
      rcases icorol_listed e with h' | h'
      · exact absurd ⟨rfl, rfl⟩ (h _ h').1
      · exact absurd ⟨rfl, rfl⟩ (h _ h').2

/-- C28, the part that holds: when no pair of modes is listed with two different axes, the correction of
every mode about every axis uses the regular form for exactly the listed pairs and axes. Missing: pairs
listed with two axes, see `c28_violated`. -/
theorem c28_regular_iff_listed_partial (nvib : Nat) (rotcon primat freq : Vec ℝ) (wila : Mat ℝ)
    (zmat f3 : T3 ℝ) (cs : List Coriolis)
    (hone : ∀ c ∈ cs, ∀ c' ∈ cs, (c.i = c'.i ∧ c.j = c'.j ∨ c.i = c'.j ∧ c.j = c'.i) → c.axis = c'.axis)
    (i x : Nat) :
    alpha nvib rotcon primat freq wila zmat f3 cs i x =
      alphaFormula nvib rotcon primat freq wila zmat f3
        (fun i j x => (⟨i, j, x⟩ : Coriolis) ∈ cs ∨ (⟨j, i, x⟩ : Coriolis) ∈ cs) i x := by
  rw [alpha_closed]
  congr 1
  funext i j x
  refine propext (icorol_iff x ?_)
  rintro x y (h | h) (h' | h')
  · exact hone _ h _ h' (.inl ⟨rfl, rfl⟩)
  · exact hone _ h _ h' (.inr ⟨rfl, rfl⟩)
  · exact hone _ h _ h' (.inr ⟨rfl, rfl⟩)
  · exact hone _ h _ h' (.inl ⟨rfl, rfl⟩)

/-- The hypothesis of `c28_regular_iff_listed_partial` is met by two pairs with different axes. -/
example : let cs : List Coriolis := [⟨1, 0, 2⟩, ⟨2, 0, 1⟩]
    ∀ c ∈ cs, ∀ c' ∈ cs, (c.i = c'.i ∧ c.j = c'.j ∨ c.i = c'.j ∧ c.j = c'.i) → c.axis = c'.axis := by
  decide

/-- C28 is violated: with modes 0 and 1 resonant about both axis 0 and axis 1, the correction about axis 0
still contains the near-singular term. -/
theorem c28_violated : ∃ (freq : Vec ℝ) (cs : List Coriolis), (⟨0, 1, 0⟩ : Coriolis) ∈ cs ∧
    alpha 2 (fun _ => 1) (fun _ => 1) freq (fun _ _ => 0) (fun _ _ _ => 1) (fun _ _ _ => 0) cs 0 0 ≠
      alphaFormula 2 (fun _ => 1) (fun _ => 1) freq (fun _ _ => 0) (fun _ _ _ => 1) (fun _ _ _ => 0)
        (fun i j x => (⟨i, j, x⟩ : Coriolis) ∈ cs ∨ (⟨j, i, x⟩ : Coriolis) ∈ cs) 0 0 := by
  refine ⟨fun i => if i = 0 then 2 else 1, [⟨0, 1, 0⟩, ⟨0, 1, 1⟩], by simp, ?_⟩
  rw [alpha_closed]
  have h : makeIcorol [⟨0, 1, 0⟩, ⟨0, 1, 1⟩] (0, 1) = some 1 := by decide
  have hf : (Finset.range 2).filter (fun j => j ≠ 0) = {1} := by decide
  simp only [alphaFormula, hf, Finset.sum_singleton, coriolisTerm, h, regularTerm, singularTerm]
  norm_num

/-- C41 for the program: listing a single Coriolis resonance between `i` and `j` about axis `x` changes the
correction of mode `i` about that axis by exactly the singular part of their term. -/
theorem c41_listing_removes (nvib : Nat) (rotcon primat freq : Vec ℝ) (wila : Mat ℝ) (zmat f3 : T3 ℝ)
    (i j x : Nat) (hj : j < nvib) (hij : j ≠ i) (h0 : freq j ≠ 0) (hs : freq i + freq j ≠ 0)
    (hd : freq i - freq j ≠ 0) :
    alpha nvib rotcon primat freq wila zmat f3 [] i x -
      alpha nvib rotcon primat freq wila zmat f3 [⟨i, j, x⟩] i x =
    2 * rotcon x ^ 2 / freq i *
      (zmat i j x ^ 2 * ((freq i + freq j) ^ 2 / (2 * freq j * (freq i - freq j)))) := by
  rw [alpha_closed, alpha_closed]
  unfold alphaFormula
  rw [← mul_sub]
  congr 1
  have hmem : j ∈ (Finset.range nvib).filter (fun j => j ≠ i) := by simp [hj, hij]
  rw [← Finset.add_sum_erase _ _ hmem, ← Finset.add_sum_erase _ _ hmem]
  have he : ∀ k ∈ ((Finset.range nvib).filter (fun j => j ≠ i)).erase j,
      coriolisTerm (makeIcorol [] (i, k) = some x) (zmat i k x) (freq i) (freq k) =
      coriolisTerm (makeIcorol [⟨i, j, x⟩] (i, k) = some x) (zmat i k x) (freq i) (freq k) := by
    intro k hk
    simp only [Finset.mem_erase, Finset.mem_filter] at hk
    have : makeIcorol [⟨i, j, x⟩] (i, k) = makeIcorol [] (i, k) := by
      simp only [makeIcorol, List.foldl_cons, List.foldl_nil, HMap.insert, Prod.mk.injEq]
      rw [if_neg (fun h => hk.2.2 h.2), if_neg (fun h => hk.1 h.2)]
    rw [this]
  rw [Finset.sum_congr rfl he]
  have r : makeIcorol [⟨i, j, x⟩] (i, j) = some x := by
    simp [makeIcorol, HMap.insert]
  have n : ¬ (makeIcorol [] (i, j) = some x) := by simp [makeIcorol, HMap.empty]
  rw [coriolisTerm, if_neg n, coriolisTerm, if_pos r, c41_identity _ _ _ h0 hs hd]
  ring

/-- The hypotheses of `c41_listing_removes` are met by two modes of frequencies 2 and 1. -/
example : alpha 2 (fun _ => 1) (fun _ => 1) (fun i => if i = 0 then (2 : ℝ) else 1) (fun _ _ => 0)
      (fun _ _ _ => 1) (fun _ _ _ => 0) [] 0 0 -
    alpha 2 (fun _ => 1) (fun _ => 1) (fun i => if i = 0 then (2 : ℝ) else 1) (fun _ _ => 0)
      (fun _ _ _ => 1) (fun _ _ _ => 0) [⟨0, 1, 0⟩] 0 0 = 9 / 2 := by
  rw [c41_listing_removes 2 _ _ _ _ _ _ 0 1 0 (by omega) (by omega)] <;> norm_num

/-! ## C40, the averaged constants -/

theorem foldlM_alphaa (al : Mat ℝ) (nvib axis : Nat) (v : List Nat) (hv : v.length = nvib) (n : Nat)
    (hn : n ≤ nvib) :
    (List.range n).foldlM (alphaaStep al ((List.range nvib).map Mode.i1) (.i1st v) axis)
      (Arith.lit 0 : ℝ) = some (∑ k ∈ Finset.range n, al k axis * ((v.getD k 0 : ℕ) + 1 / 2)) := by
  induction n with
  | zero => simp [lit_real]
  | succ n ih =>
    rw [List.range_succ, List.foldlM_append, ih (by omega)]
    have h1 : ((List.range nvib).map Mode.i1)[n]? = some (.i1 n) := by
      simp [show n < nvib by omega]
    have h2 : v[n]? = some (v.getD n 0) := by
      rw [List.getD_eq_getElem?_getD, List.getElem?_eq_getElem (by omega)]; rfl
    rw [Option.bind_eq_bind, Option.bind_some, List.foldlM_cons, alphaaStep, h1]
    simp only [h2, Option.map_some, List.foldlM_nil, Option.bind_eq_bind, Option.bind_some, pure]
    rw [Finset.sum_range_succ, ofNat_real, lit_real]
    norm_num

/-- The states of the ground state and of the fundamentals of non-degenerate and degenerate modes. -/
theorem states_first {nvib i2vib : Nat} {modes : List Mode} {t : StateTab}
    (h : newStates nvib i2vib modes = some t) :
    t.states[0]? = some (.i1st (List.replicate nvib 0)) ∧
    (∀ k < (Mode.partition modes).1.length,
      t.states[k + 1]? = some (.i1st ((List.replicate nvib 0).set k 1)) ∧ k < nvib) ∧
    (∀ k < (Mode.partition modes).2.1.length,
      t.states[(Mode.partition modes).1.length + k + 1]? =
        some (.i2st ((List.replicate nvib (0, 0)).set k (1, 1))) ∧ k < nvib) := by
  obtain ⟨sts, h1, h2⟩ := newStates_states h
  have e : ∀ k st, (stateItems nvib modes)[k]?.map (·.state) = some (some st) →
      t.states[k + 1]? = some st := by
    intro k st hk
    rw [← List.getElem?_map, h1, List.getElem?_map] at hk
    rw [h2, List.getElem?_cons_succ]
    cases hs : sts[k]? with
    | none => simp [hs] at hk
    | some s => simp [hs] at hk; rw [hk]
  have d : ∀ (k : Nat) (x : StateItem), (stateItems nvib modes)[k]? = some x → x.state.isSome := by
    intro k x hk
    have : ((stateItems nvib modes).map (·.state))[k]? = some x.state := by
      rw [List.getElem?_map, hk]; rfl
    rw [h1, List.getElem?_map] at this
    cases hs : sts[k]? with
    | none => simp [hs] at this
    | some s => simp [hs] at this; simp [← this]
  have l1 : (fund1Items nvib (Mode.partition modes).1).length = (Mode.partition modes).1.length := by
    simp [fund1Items]
  have l2 : (fund2Items nvib (Mode.partition modes).2.1).length = (Mode.partition modes).2.1.length := by
    simp [fund2Items]
  refine ⟨by rw [h2]; rfl, fun k hk => ?_, fun k hk => ?_⟩
  · have g : (stateItems nvib modes)[k]? = some
        ⟨(setAt (List.replicate nvib 0) k 1).map .i1st, [.fund ((Mode.partition modes).1.getD k 0)]⟩ := by
      simp only [stateItems, List.append_assoc]
      rw [List.getElem?_append_left (by omega)]
      simp [fund1Items, hk]
    have hs := d k _ g
    simp only [Option.isSome_map] at hs
    unfold setAt at hs
    split at hs
    · next hlt =>
      rw [List.length_replicate] at hlt
      refine ⟨e k _ ?_, hlt⟩
      rw [g]
      simp [setAt, hlt]
    · simp at hs
  · have g : (stateItems nvib modes)[(Mode.partition modes).1.length + k]? = some
        ⟨(setAt (List.replicate nvib (0, 0)) k (1, 1)).map .i2st,
          [.fund ((Mode.partition modes).2.1.getD k (0, 0)).1,
            .fund ((Mode.partition modes).2.1.getD k (0, 0)).2]⟩ := by
      simp only [stateItems, List.append_assoc]
      rw [List.getElem?_append_right (by omega), List.getElem?_append_left (by omega)]
      simp [fund2Items, l1, hk]
    have hs := d _ _ g
    simp only [Option.isSome_map] at hs
    unfold setAt at hs
    split at hs
    · next hlt =>
      rw [List.length_replicate] at hlt
      refine ⟨e _ _ ?_, hlt⟩
      rw [g]
      simp [setAt, hlt]
    · simp at hs

theorem foldlM_set {X : Type} (L : List X) (key : X → Nat × Nat) (val : X → Option ℝ) (m : Mat ℝ)
    (hv : ∀ x ∈ L, (val x).isSome) (hinj : ∀ x ∈ L, ∀ y ∈ L, key x = key y → val x = val y) :
    ∃ R, L.foldlM (fun m x => (val x).map fun v => Mat.set m (key x).1 (key x).2 v) m = some R ∧
      ∀ x ∈ L, val x = some (R (key x).1 (key x).2) := by
  induction L using List.reverseRecOn with
  | nil => exact ⟨m, rfl, by simp⟩
  | append_singleton L a ih =>
    obtain ⟨R, h1, h2⟩ := ih (fun x hx => hv x (by simp [hx]))
      (fun x hx y hy => hinj x (by simp [hx]) y (by simp [hy]))
    obtain ⟨v, ha⟩ := Option.isSome_iff_exists.1 (hv a (by simp))
    refine ⟨Mat.set R (key a).1 (key a).2 v, ?_, ?_⟩
    · rw [List.foldlM_append, h1]
      simp [ha]
    · intro x hx
      by_cases hk : key x = key a
      · rw [hinj x hx a (by simp) hk, ha, hk]
        simp [Mat.set]
      · have hx' : x ∈ L := by
          rw [List.mem_append, List.mem_singleton] at hx
          rcases hx with hx | rfl
          · exact hx
          · exact absurd rfl hk
        rw [h2 x hx']
        unfold Mat.set
        rw [if_neg (fun h => hk (Prod.ext h.1 h.2))]

/-- C40, the averaged constants: for an asymmetric top with `nvib` modes the computation succeeds; the
constants of the ground state are the equilibrium ones plus half the sum of all vibration-rotation
constants, and those of the `k`-th fundamental differ from the ground state by exactly that mode's
vibration-rotation constant. -/
theorem c40_averaged (nvib i2vib : Nat) (freq : Vec ℝ) (t : StateTab)
    (ht : newStates nvib i2vib (degModes .asymmTop nvib freq) = some t) (rotcon : Vec ℝ) (al : Mat ℝ) :
    ∃ R, alphaa nvib rotcon al (degModes .asymmTop nvib freq) t.states = some R ∧
      ∀ axis < 3, R 0 axis = rotcon axis + 1 / 2 * ∑ k ∈ Finset.range nvib, al k axis ∧
        ∀ k < nvib, R (k + 1) axis - R 0 axis = al k axis := by
  have hm : degModes .asymmTop nvib freq = (List.range nvib).map Mode.i1 := rfl
  have hp1 : (Mode.partition (degModes .asymmTop nvib freq)).1.length = nvib := by
    rw [partition_asym .asymmTop rfl]; simp
  obtain ⟨h0, h1, -⟩ := states_first ht
  have hcount : (Mode.count (degModes .asymmTop nvib freq)).1 = nvib := by
    rw [c18_count]; exact hp1
  have entry : ∀ n v, t.states[n]? = some (.i1st v) → v.length = nvib → ∀ axis,
      alphaaEntry rotcon al (degModes .asymmTop nvib freq) t.states n axis =
        some (rotcon axis + ∑ k ∈ Finset.range nvib, al k axis * ((v.getD k 0 : ℕ) + 1 / 2)) := by
    intro n v hn hv axis
    rw [alphaaEntry, hn, Option.bind_some, hcount, hm, foldlM_alphaa al nvib axis v hv nvib le_rfl]
    rfl
  have e0 := entry 0 _ h0 (by simp)
  have e1 : ∀ k < nvib, _ := fun k hk => entry (k + 1) _ (h1 k (by omega)).1 (by simp)
  obtain ⟨R, hR, hRv⟩ := foldlM_set
    ((List.range 3).flatMap fun axis => (List.range (nvib + 1)).map fun n => (n, axis)) id
    (fun p => alphaaEntry rotcon al (degModes .asymmTop nvib freq) t.states p.1 p.2)
    (fun _ _ => Arith.lit 0) (by
      rintro ⟨n, axis⟩ hx
      simp only [List.mem_flatMap, List.mem_map, List.mem_range, Prod.mk.injEq] at hx
      obtain ⟨a, ha, n', hn, rfl, rfl⟩ := hx
      simp only
      rcases n' with _ | k
      · rw [e0]; rfl
      · rw [e1 k (by omega)]; rfl) (by
      rintro x - y - h
      rw [show x = y from h])
  have val : ∀ n axis, n < nvib + 1 → axis < 3 →
      alphaaEntry rotcon al (degModes .asymmTop nvib freq) t.states n axis = some (R n axis) := by
    intro n axis hn ha
    refine hRv (n, axis) ?_
    simp only [List.mem_flatMap, List.mem_map, List.mem_range, Prod.mk.injEq]
    exact ⟨axis, ha, n, hn, rfl, rfl⟩
  refine ⟨R, hR, fun axis ha => ?_⟩
  have g0 := Option.some.inj ((val 0 axis (by omega) ha).symm.trans (e0 axis))
  refine ⟨?_, fun k hk => ?_⟩
  · rw [g0, Finset.mul_sum]
    congr 1
    refine Finset.sum_congr rfl fun k hk => ?_
    rw [Finset.mem_range] at hk
    simp [List.getD_eq_getElem?_getD, hk]
    ring
  · have gk := Option.some.inj ((val (k + 1) axis (by omega) ha).symm.trans (e1 k hk axis))
    rw [g0, gk, add_sub_add_left_eq_sub, ← Finset.sum_sub_distrib]
    rw [Finset.sum_eq_single k]
    · rw [getD_set_rep _ _ _ _ _ hk]
      simp [List.getD_eq_getElem?_getD, hk]
      ring
    · intro b hb hbk
      rw [Finset.mem_range] at hb
      rw [getD_set_rep _ _ _ _ _ hk, if_neg hbk]
      simp [List.getD_eq_getElem?_getD, hb]
    · intro h; exact absurd (Finset.mem_range.2 hk) h

/-- The hypothesis of `c40_averaged` is met by three modes. -/
example : (newStates 3 6 (degModes .asymmTop 3 (fun _ => (0 : ℝ)))).isSome = true := by
  have : degModes .asymmTop 3 (fun _ => (0 : ℝ)) = [.i1 0, .i1 1, .i1 2] := rfl
  rw [this]; decide

/-! ## C29 -/

theorem foldl_set_row {X : Type} (L : List X) (row : X → Nat) (col : Nat) (val : X → ℝ) (m : Mat ℝ)
    (a b : Nat) (v : ℝ) (hv : ∀ x ∈ L, row x = a → b = col → val x = v)
    (hm : (b = col → ∀ x ∈ L, row x ≠ a) → m a b = v) :
    (L.foldl (fun m x => Mat.set m (row x) col (val x)) m) a b = v := by
  by_cases h : b = col ∧ ∃ x ∈ L, row x = a
  · obtain ⟨hb, x, hx, e⟩ := h
    refine foldl_write_eq (fun m : Mat ℝ => m a b) (fun x => row x = a) val _ ?_ L m v
      (fun x hx hr => hv x hx hr hb) ⟨x, hx, e⟩
    intro t x
    simp only [Mat.set, hb, and_true, eq_comm]
  · rw [foldl_obs_const (fun m : Mat ℝ => m a b)]
    · refine hm fun hb x hx e => h ⟨hb, x, hx, e⟩
    · intro t x hx
      simp only [Mat.set]
      rw [if_neg]
      rintro ⟨e, hb⟩
      exact h ⟨hb, x, hx, e.symm⟩

/-- What `make_alpha` stores for a non-degenerate mode. -/
theorem makeAlpha_nondeg (p : AlphaIn ℝ) (h1 : p.i1mode.Nodup) (hax : p.ax.ia ≠ p.ax.ib)
    (kk : Nat) (hk : kk < p.i1mode.length)
    (hd : ∀ q ∈ p.i2mode, q.1 ≠ p.i1mode.getD kk 0) :
    makeAlpha p (p.i1mode.getD kk 0) p.ax.ia = alphaA1 p kk ∧
    makeAlpha p (p.i1mode.getD kk 0) p.ax.ib = alphaB1 p kk := by
  have inj : ∀ x ∈ List.range p.i1mode.length, p.i1mode.getD x 0 = p.i1mode.getD kk 0 → x = kk := by
    intro x hx e
    rw [List.mem_range] at hx
    simp only [List.getD_eq_getElem?_getD, List.getElem?_eq_getElem hx, List.getElem?_eq_getElem hk,
      Option.getD_some] at e
    exact h1.getElem_inj_iff.1 e
  have n2 : ∀ x ∈ List.range p.i2mode.length, (p.i2mode.getD x (0, 0)).1 ≠ p.i1mode.getD kk 0 := by
    intro x hx
    rw [List.mem_range] at hx
    exact hd _ (getD_mem (0, 0) hx)
  unfold makeAlpha
  constructor
  · refine foldl_set_row _ _ _ _ _ _ _ _ (fun x hx e _ => absurd e (n2 x hx)) fun _ => ?_
    refine foldl_set_row _ _ _ _ _ _ _ _ (fun x hx e h => absurd h hax) fun _ => ?_
    refine foldl_set_row _ _ _ _ _ _ _ _ (fun x hx e _ => absurd e (n2 x hx)) fun _ => ?_
    refine foldl_set_row _ _ _ _ _ _ _ _ (fun x hx e _ => by rw [inj x hx e]) fun h => ?_
    exact absurd rfl (h rfl kk (List.mem_range.2 hk))
  · refine foldl_set_row _ _ _ _ _ _ _ _ (fun x hx e _ => absurd e (n2 x hx)) fun _ => ?_
    refine foldl_set_row _ _ _ _ _ _ _ _ (fun x hx e _ => by rw [inj x hx e]) fun h => ?_
    exact absurd rfl (h rfl kk (List.mem_range.2 hk))

theorem list_sum_if {X : Type} (l : List X) (P : X → Prop) [DecidablePred P] (f : X → ℝ) :
    (l.map fun j => if P j then 0 else f j).sum = ((l.filter fun j => ¬ P j).map f).sum := by
  induction l with
  | nil => rfl
  | cons a l ih =>
    by_cases h : P a <;> simp [h, ih]

/-- The input of `make_alpha` for a symmetric top with the given modes and Coriolis list. -/
abbrev symIn (r : Rotor) (modes : List Mode) (rotcon primat freq : Vec ℝ) (wila : Mat ℝ) (zmat f3 : T3 ℝ)
    (L : List Coriolis) : AlphaIn ℝ :=
  ⟨r, rotcon, primat, freq, wila, zmat, f3, makeIcorol L, (Mode.partition modes).1,
    (Mode.partition modes).2.1, symAxes r⟩

/-- C29, the part that holds for the unique axis: for oblate and linear tops the correction of a
non-degenerate mode about the unique axis uses the regular form for exactly the non-degenerate modes that
are Coriolis resonant with it about that axis. Missing: prolate tops (`c29_prolate_violated`) and pairs of
degenerate modes (`c29_degenerate_violated`). -/
theorem c29_unique_axis_partial (r : Rotor) (hr : r = .oblateSymmTop ∨ r = .linear) (modes : List Mode)
    (hnd : modes.Nodup)
    (hdisj : ∀ i a, Mode.i1 i ∈ modes → Mode.i2 i a ∉ modes ∧ Mode.i2 a i ∉ modes)
    (rotcon primat freq : Vec ℝ) (wila : Mat ℝ) (zmat f3 : T3 ℝ)
    (hanti : ∀ i j x, zmat i j x = -zmat j i x) (L : List Coriolis)
    (hL : coriolis r modes freq zmat = some L) (k : Nat) (hk : Mode.i1 k ∈ modes) :
    makeAlpha (symIn r modes rotcon primat freq wila zmat f3 L) k 2 =
      2 * rotcon 2 ^ 2 / freq k * (3 / 4 * wila k 5 ^ 2 / primat 2 +
        (((Mode.partition modes).1.filter fun j => ¬ j = k).map fun j =>
          coriolisTerm (|freq k - freq j| ≤ 200 ∧ 0.25 ≤ |zmat j k 2|) (zmat j k 2) (freq k)
            (freq j)).sum +
        0.086112 * ((Mode.partition modes).1.map fun j =>
          wila j 5 * f3 j k k * freq k / freq j ^ (3 / 2 : ℝ)).sum) := by
  have hax : symAxes r = ⟨2, 1, 0, 5, 4, 2, 1⟩ := by rcases hr with rfl | rfl <;> rfl
  have hax' : axialTop r := hr.elim .inl (fun h => .inr (.inr h))
  have hrep : ∀ z, reportedAxis r z = z := by rcases hr with rfl | rfl <;> intro z <;> rfl
  obtain ⟨kk, hkk, ekk⟩ := List.mem_iff_getElem.1 ((part1_mem ..).2 hk)
  have gk : (Mode.partition modes).1.getD kk 0 = k := by
    simp [List.getD_eq_getElem?_getD, hkk, ekk]
  have key := (makeAlpha_nondeg (symIn r modes rotcon primat freq wila zmat f3 L) (nodup_part1 hnd)
    (by simp [hax]) kk hkk (by
      intro q hq
      simp only at hq ⊢
      rw [gk]
      rintro rfl
      exact (hdisj q.1 q.2 hk).1 ((part2_mem ..).1 hq))).1
  simp only [gk, hax] at key
  rw [key]
  unfold alphaA1
  simp only [gk, hax]
  have hone : ∀ j, Mode.i1 j ∈ modes → j ≠ k → (makeIcorol L (j, k) = some 2 ↔
      |freq k - freq j| ≤ 200 ∧ 0.25 ≤ |zmat j k 2|) := by
    intro j hj hjk
    have ax2 : ∀ a b x, Mode.i1 a ∈ modes → Mode.i1 b ∈ modes → (⟨a, b, x⟩ : Coriolis) ∈ L → x = 2 := by
      intro a b x ha hb h
      obtain ⟨z, rfl, -, -, (⟨rfl, -⟩ | ⟨-, (⟨-, c, h'⟩ | ⟨⟨c, h'⟩, -⟩ | ⟨c, d, -, h', -⟩)⟩)⟩ :=
        (c26_coriolis_iff r hax' modes hnd freq zmat L hL a b x).1 h
      · exact hrep 2
      · exact absurd h' (hdisj _ _ hb).1
      · exact absurd h' (hdisj _ _ ha).1
      · exact absurd h' (hdisj _ _ ha).1
    rw [icorol_iff]
    · rw [c26_coriolis_iff r hax' modes hnd freq zmat L hL,
        c26_coriolis_iff r hax' modes hnd freq zmat L hL]
      constructor
      · rintro (⟨z, hz, h1, h2, -⟩ | ⟨z, hz, h1, h2, -⟩) <;> rw [hrep] at hz <;> subst hz
        · rw [abs_sub_comm]; exact ⟨h1, h2⟩
        · rw [hanti, abs_neg]; exact ⟨h1, h2⟩
      · rintro ⟨h1, h2⟩
        rw [abs_sub_comm] at h1
        exact .inl ⟨2, (hrep 2).symm, h1, h2, .inl ⟨rfl, .inl ⟨hjk, hj, hk⟩⟩⟩
    · rintro x y (h | h) (h' | h')
      · rw [ax2 _ _ _ hj hk h, ax2 _ _ _ hj hk h']
      · rw [ax2 _ _ _ hj hk h, ax2 _ _ _ hk hj h']
      · rw [ax2 _ _ _ hk hj h, ax2 _ _ _ hj hk h']
      · rw [ax2 _ _ _ hk hj h, ax2 _ _ _ hk hj h']
  rw [foldl_if_add _ (fun j => if j = k then 0 else
    coriolisTerm (|freq k - freq j| ≤ 200 ∧ 0.25 ≤ |zmat j k 2|) (zmat j k 2) (freq k) (freq j)),
    list_sum_if]
  · simp only [sumL_real, sq_real, lit_real, powf15_real, ALPHA_CONST]
    norm_num
  · intro s j hj
    by_cases hjk : j = k
    · rw [if_pos hjk, if_pos hjk, add_zero]
    · rw [if_neg hjk, if_neg hjk]
      have h := hone j ((part1_mem ..).1 hj) hjk
      unfold coriolisTerm
      by_cases hc : makeIcorol L (j, k) = some 2
      · rw [if_pos ((isAxis_iff ..).2 hc), if_pos (h.1 hc), corReg_real]
      · rw [if_neg (fun e => hc ((isAxis_iff ..).1 e)), if_neg (fun e => hc (h.2 e)), corFull_real]

/-- The hypotheses of `c29_unique_axis_partial` are met by two non-degenerate modes and a degenerate one. -/
example : let modes : List Mode := [.i2 0 1, .i1 2, .i1 3]
    modes.Nodup ∧ (∀ i a, Mode.i1 i ∈ modes → Mode.i2 i a ∉ modes ∧ Mode.i2 a i ∉ modes) ∧
    Mode.i1 3 ∈ modes ∧
    ∃ L, coriolis .oblateSymmTop modes (fun _ => (1000 : ℝ)) (fun _ _ _ => 0) = some L := by
  refine ⟨by decide, ?_, by decide, _, rfl⟩
  intro i a hi
  simp at hi ⊢
  omega

/-- C29, the part that holds for the other axes: for oblate and linear tops the correction of a
non-degenerate mode about a perpendicular axis uses, for each degenerate mode and each perpendicular axis,
the regular form exactly when the pair is Coriolis resonant about that axis, provided no degenerate mode is
resonant with it about both perpendicular axes. -/
theorem c29_perpendicular_partial (r : Rotor) (hr : r = .oblateSymmTop ∨ r = .linear) (modes : List Mode)
    (hnd : modes.Nodup)
    (hdisj : ∀ i a, Mode.i1 i ∈ modes → Mode.i2 i a ∉ modes ∧ Mode.i2 a i ∉ modes)
    (rotcon primat freq : Vec ℝ) (wila : Mat ℝ) (zmat f3 : T3 ℝ)
    (hanti : ∀ i j x, zmat i j x = -zmat j i x) (L : List Coriolis)
    (hL : coriolis r modes freq zmat = some L) (k : Nat) (hk : Mode.i1 k ∈ modes)
    (hone : ∀ j a, Mode.i2 j a ∈ modes → |freq k - freq j| ≤ 200 →
      ¬ (0.25 ≤ |zmat k j 0| ∧ 0.25 ≤ |zmat k j 1|)) :
    makeAlpha (symIn r modes rotcon primat freq wila zmat f3 L) k 1 =
      2 * rotcon 1 ^ 2 / freq k * (3 / 4 * (wila k 2 ^ 2 + wila k 1 ^ 2) / primat 1 +
        ((Mode.partition modes).2.1.map fun j =>
          coriolisTerm (|freq k - freq j.1| ≤ 200 ∧ 0.25 ≤ |zmat k j.1 0|) (zmat k j.1 0) (freq k)
            (freq j.1) +
          coriolisTerm (|freq k - freq j.1| ≤ 200 ∧ 0.25 ≤ |zmat k j.1 1|) (zmat k j.1 1) (freq k)
            (freq j.1)).sum +
        0.086112 * ((Mode.partition modes).1.map fun j =>
          f3 j k k * wila j 2 * freq k / freq j ^ (3 / 2 : ℝ)).sum) := by
  have hax : symAxes r = ⟨2, 1, 0, 5, 4, 2, 1⟩ := by rcases hr with rfl | rfl <;> rfl
  have hax' : axialTop r := hr.elim .inl (fun h => .inr (.inr h))
  have hrep : ∀ z, reportedAxis r z = z := by rcases hr with rfl | rfl <;> intro z <;> rfl
  obtain ⟨kk, hkk, ekk⟩ := List.mem_iff_getElem.1 ((part1_mem ..).2 hk)
  have gk : (Mode.partition modes).1.getD kk 0 = k := by
    simp [List.getD_eq_getElem?_getD, hkk, ekk]
  have key := (makeAlpha_nondeg (symIn r modes rotcon primat freq wila zmat f3 L) (nodup_part1 hnd)
    (by simp [hax]) kk hkk (by
      intro q hq
      simp only at hq ⊢
      rw [gk]
      rintro rfl
      exact (hdisj q.1 q.2 hk).1 ((part2_mem ..).1 hq))).2
  simp only [gk, hax] at key
  rw [key]
  unfold alphaB1
  simp only [gk, hax]
  have look : ∀ j a, Mode.i2 j a ∈ modes → ∀ x, (x = 0 ∨ x = 1) → (makeIcorol L (j, k) = some x ↔
      |freq k - freq j| ≤ 200 ∧ 0.25 ≤ |zmat k j x|) := by
    intro j a hj x hx
    have ent : ∀ y, ((⟨j, k, y⟩ : Coriolis) ∈ L ∨ (⟨k, j, y⟩ : Coriolis) ∈ L) ↔
        (y = 0 ∨ y = 1) ∧ |freq k - freq j| ≤ 200 ∧ 0.25 ≤ |zmat k j y| := by
      intro y
      rw [c26_coriolis_iff r hax' modes hnd freq zmat L hL,
        c26_coriolis_iff r hax' modes hnd freq zmat L hL]
      constructor
      · rintro (⟨z, hz, h1, h2, (⟨rfl, (⟨-, h, -⟩ | ⟨c, d, -, -, h⟩)⟩ | ⟨hz', -⟩)⟩ |
          ⟨z, hz, h1, h2, (⟨rfl, (⟨-, -, h⟩ | ⟨c, d, -, h, -⟩)⟩ | ⟨hz', -⟩)⟩) <;>
          rw [hrep] at hz <;> subst hz
        · exact absurd hj (hdisj _ _ h).1
        · exact absurd h (hdisj _ _ hk).2
        · rw [abs_sub_comm] at h1
          rw [hanti, abs_neg] at h2
          exact ⟨hz', h1, h2⟩
        · exact absurd hj (hdisj _ _ h).1
        · exact absurd h (hdisj _ _ hk).1
        · exact ⟨hz', h1, h2⟩
      · rintro ⟨hy, h1, h2⟩
        exact .inr ⟨y, (hrep y).symm, h1, h2, .inr ⟨hy, .inl ⟨hk, a, hj⟩⟩⟩
    rw [icorol_iff, ent]
    · exact ⟨fun h => h.2, fun h => ⟨hx, h⟩⟩
    · intro x y h h'
      rw [ent] at h h'
      have := hone j a hj h.2.1
      obtain ⟨hx, -, h2⟩ := h
      obtain ⟨hy, -, h2'⟩ := h'
      rcases hx with rfl | rfl <;> rcases hy with rfl | rfl
      · rfl
      · exact absurd ⟨h2, h2'⟩ this
      · exact absurd ⟨h2', h2⟩ this
      · rfl
  rw [foldl_if_add _ (fun j : Nat × Nat =>
    coriolisTerm (|freq k - freq j.1| ≤ 200 ∧ 0.25 ≤ |zmat k j.1 0|) (zmat k j.1 0) (freq k)
      (freq j.1) +
    coriolisTerm (|freq k - freq j.1| ≤ 200 ∧ 0.25 ≤ |zmat k j.1 1|) (zmat k j.1 1) (freq k)
      (freq j.1))]
  · simp only [sumL_real, sq_real, lit_real, powf15_real, ALPHA_CONST]
    norm_num
  · intro s j hj
    have h := look j.1 j.2 ((part2_mem ..).1 hj)
    unfold corPerp
    simp only [hax]
    rw [corIf _ _ _ _ _ _ ((isAxis_iff ..).trans (h 0 (.inl rfl))),
      corIf _ _ _ _ _ _ ((isAxis_iff ..).trans (h 1 (.inr rfl)))]
    ring

/-- The hypotheses of `c29_perpendicular_partial` are met: the same modes with a resonance about axis 0. -/
example : let modes : List Mode := [.i2 0 1, .i1 2, .i1 3]
    let zmat : T3 ℝ := fun i j x => if x = 0 then (if i < j then 0.5 else if j < i then -0.5 else 0) else 0
    (∀ i j x, zmat i j x = -zmat j i x) ∧
    ∀ j a, Mode.i2 j a ∈ modes → |(1000 : ℝ) - 1000| ≤ 200 →
      ¬ (0.25 ≤ |zmat 2 j 0| ∧ 0.25 ≤ |zmat 2 j 1|) := by
  intro modes zmat
  refine ⟨?_, ?_⟩
  · intro i j x
    simp only [zmat]
    split_ifs <;> first | omega | norm_num
  · rintro j a - - ⟨-, h⟩
    simp [zmat] at h
    norm_num at h

/-- C29 is violated by prolate tops: two non-degenerate modes resonant about the unique axis 2 are reported
(under axis 0), but the correction about axis 2 keeps the near-singular term. -/
theorem c29_prolate_violated : ∃ (zmat : T3 ℝ) (freq : Vec ℝ) (L : List Coriolis),
    coriolis .prolateSymmTop [.i1 0, .i1 1] freq zmat = some L ∧
    (⟨0, 1, 0⟩ : Coriolis) ∈ L ∧ 0.25 ≤ |zmat 0 1 2| ∧ zmat 0 1 0 = 0 ∧
    makeAlpha (symIn .prolateSymmTop [.i1 0, .i1 1] (fun _ => 1) (fun _ => 1) freq (fun _ _ => 0) zmat
      (fun _ _ _ => 0) L) 0 2 = singularTerm (zmat 1 0 2) (freq 0) (freq 1) ∧
    singularTerm (zmat 1 0 2) (freq 0) (freq 1) ≠ regularTerm (zmat 1 0 2) (freq 0) (freq 1) := by
  set zmat : T3 ℝ := fun i j x => if x = 2 then (if i < j then 1 else if j < i then -1 else 0) else 0
    with hz
  set freq : Vec ℝ := fun i => if i = 0 then 2 else 1 with hf
  obtain ⟨L, hL⟩ : ∃ L, coriolis .prolateSymmTop [.i1 0, .i1 1] freq zmat = some L := ⟨_, rfl⟩
  have hiff := c26_coriolis_iff .prolateSymmTop (.inr (.inl rfl)) [.i1 0, .i1 1] (by decide) freq zmat L hL
  have hno : makeIcorol L (1, 0) ≠ some 2 := by
    intro h
    have : ∀ a b, (⟨a, b, 2⟩ : Coriolis) ∉ L := by
      intro a b hab
      obtain ⟨z, h2, -, -, (⟨rfl, -⟩ | ⟨-, h⟩)⟩ := (hiff a b 2).1 hab
      · simp [reportedAxis] at h2
      · simp at h
    rcases icorol_listed h with h | h
    · exact this _ _ h
    · exact this _ _ h
  refine ⟨zmat, freq, L, hL, ?_, ?_, ?_, ?_, ?_⟩
  · refine (hiff 0 1 0).2 ⟨2, rfl, ?_, ?_, .inl ⟨rfl, .inl ⟨by decide, by decide, by decide⟩⟩⟩
    · simp [hf]; norm_num
    · simp [hz]; norm_num
  · simp [hz]; norm_num
  · simp [hz]
  · have key := (makeAlpha_nondeg (symIn .prolateSymmTop [.i1 0, .i1 1] (fun _ => 1) (fun _ => 1) freq
      (fun _ _ => 0) zmat (fun _ _ _ => 0) L)
      (show [0, 1].Nodup by decide) (show 2 ≠ 1 by decide) 0 (show 0 < 2 by decide)
      (by intro q hq; cases hq)).1
    have e1 : (symAxes .prolateSymmTop).ia = 2 := rfl
    have e2 : (Mode.partition [.i1 0, .i1 1]).1 = [0, 1] := rfl
    simp only [e1, e2, List.getD_cons_zero] at key
    rw [key]
    unfold alphaA1
    simp only [e1, e2, List.getD_cons_zero, List.foldl_cons, List.foldl_nil, if_true,
      if_neg (show ¬ (1 = 0) by decide)]
    rw [if_neg (fun e => hno ((isAxis_iff ..).1 e)), corFull_real]
    simp [sumL_real, sq_real, lit_real, hf]
    norm_num
  · simp only [singularTerm, regularTerm, hz, hf]
    norm_num

/-- C29 is violated by degenerate modes: whenever two degenerate modes of an oblate top (whose components
are all different) resonate about the unique axis, the lookup made by the correction finds nothing for that
axis, because the resonance is stored for the second component and looked up for the first. -/
theorem c29_degenerate_violated (modes : List Mode) (hnd : modes.Nodup)
    (freq : Vec ℝ) (zmat : T3 ℝ) (L : List Coriolis)
    (hL : coriolis .oblateSymmTop modes freq zmat = some L) (k k' j j' : Nat)
    (hk : Mode.i2 k k' ∈ modes) (hj : Mode.i2 j j' ∈ modes)
    (h1 : ∀ a b, Mode.i2 a b ∈ modes → b ≠ k ∧ b ≠ j)
    (hdisj : ∀ i a, Mode.i1 i ∈ modes → Mode.i2 i a ∉ modes) :
    isAxis (makeIcorol L (j, k)) 2 = false := by
  by_contra h
  rw [Bool.not_eq_false, isAxis_iff] at h
  have hiff := c26_coriolis_iff .oblateSymmTop (.inl rfl) modes hnd freq zmat L hL
  have ax : ∀ z, reportedAxis .oblateSymmTop z = z := fun z => rfl
  rcases icorol_listed h with h | h
  · obtain ⟨z, hz, -, -, (⟨-, (⟨-, h, -⟩ | ⟨a, b, -, -, h⟩)⟩ | ⟨hz', -⟩)⟩ := (hiff _ _ _).1 h
    · exact hdisj _ _ h hj
    · exact (h1 _ _ h).1 rfl
    · rw [ax] at hz; omega
  · obtain ⟨z, hz, -, -, (⟨-, (⟨-, h, -⟩ | ⟨a, b, -, -, h⟩)⟩ | ⟨hz', -⟩)⟩ := (hiff _ _ _).1 h
    · exact hdisj _ _ h hk
    · exact (h1 _ _ h).2 rfl
    · rw [ax] at hz; omega

/-- The hypotheses of `c29_degenerate_violated` are met, with the resonance present. -/
example : ∃ L, coriolis .oblateSymmTop [.i2 0 1, .i2 2 3] (fun _ => (1000 : ℝ)) (fun _ _ _ => 0.5) = some L ∧
    (⟨0, 3, 2⟩ : Coriolis) ∈ L ∧ isAxis (makeIcorol L (2, 0)) 2 = false := by
  obtain ⟨L, hL⟩ : ∃ L, coriolis .oblateSymmTop [.i2 0 1, .i2 2 3] (fun _ => (1000 : ℝ))
    (fun _ _ _ => 0.5) = some L := ⟨_, rfl⟩
  refine ⟨L, hL, ?_, ?_⟩
  · refine (c26_coriolis_iff .oblateSymmTop (.inl rfl) _ (by decide) _ _ L hL 0 3 2).2
      ⟨2, rfl, by norm_num, by norm_num [abs_le], .inl ⟨rfl, .inr ⟨1, 2, by decide, by decide, by decide⟩⟩⟩
  · refine c29_degenerate_violated _ (by decide) _ _ L hL 0 1 2 3 (by decide) (by decide) ?_ ?_
    · intro a b h; simp at h; omega
    · intro i a h; simp at h

end Verif
