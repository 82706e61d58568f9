import Verif.Lemmas.State
import Verif.Model.Resonance

/-! # C19, C20, C21: enumeration of states and the lookup tables into it -/

namespace Verif

variable {α : Type} [Arith α]

/-! ## C19 -/

/-- C19: the states and their order. The ground state, the fundamentals of the modes of each degeneracy,
the overtones of non-degenerate and doubly degenerate modes, then the combination bands. -/
theorem c19_order (nvib i2vib : Nat) (modes : List Mode) (t : StateTab)
    (h : newStates nvib i2vib modes = some t) (n1 n2 n3 : Nat) (hc : Mode.count modes = (n1, n2, n3)) :
    t.states.map State.occ = [noQuanta] ++
      ((List.range n1).map (fun p => fundOcc (1, p)) ++ (List.range n2).map (fun p => fundOcc (2, p)) ++
        (List.range n3).map (fun p => fundOcc (3, p)) ++
        (List.range n1).map (fun p => ovrOcc (1, p)) ++ (List.range n2).map (fun p => ovrOcc (2, p)) ++
        ((List.range n1).flatMap fun p =>
          ((List.range' (p + 1) (n1 - (p + 1))).map fun q => combOcc (1, p) (1, q)) ++
          ((List.range n2).map fun q => combOcc (1, p) (2, q))) ++
        ((List.range n2).flatMap fun p =>
          (List.range' (p + 1) (n2 - (p + 1))).map fun q => combOcc (2, p) (2, q))) := by
  obtain ⟨sts, h1, h2⟩ := newStates_states h
  have h3 := gives_stateItems nvib modes sts h1
  rw [c18_count] at hc
  simp only [Prod.mk.injEq] at hc
  obtain ⟨rfl, rfl, rfl⟩ := hc
  rw [h2, List.map_cons, occ_ground, h3]
  rfl

/-- C19: the number of states. -/
theorem c19_length (nvib i2vib : Nat) (modes : List Mode) (t : StateTab)
    (h : newStates nvib i2vib modes = some t) (n1 n2 n3 : Nat) (hc : Mode.count modes = (n1, n2, n3)) :
    t.states.length = 1 + (n1 + n2 + n3) + (n1 + n2) + (n1 + n2).choose 2 := by
  have h1 := congrArg List.length (c19_order nvib i2vib modes t h n1 n2 n3 hc)
  have h2 := itemOccs_length n1 n2 n3
  rw [List.length_append, List.length_map, List.length_singleton] at h1
  rw [h1]
  show 1 + (itemOccs n1 n2 n3).length = _
  omega

/-- C19: no two states have the same quanta. -/
theorem c19_distinct (nvib i2vib : Nat) (modes : List Mode) (t : StateTab)
    (h : newStates nvib i2vib modes = some t) : (t.states.map State.occ).Nodup := by
  have h1 := c19_order nvib i2vib modes t h _ _ _ (c18_count modes)
  have h2 := labels_occ (Mode.partition modes).1.length (Mode.partition modes).2.1.length
    (Mode.partition modes).2.2.length
  rw [h1, List.singleton_append]
  show (noQuanta :: itemOccs _ _ _).Nodup
  rw [← h2]
  refine List.Nodup.map_on ?_ (labels_nodup ..)
  intro x hx y hy hxy
  exact Lab.occ_inj (labels_ok _ _ _ x hx) (labels_ok _ _ _ y hy) hxy

/-- C19: for any two different non-degenerate or doubly degenerate modes there is a state with one quantum
in each (by `c19_distinct` exactly one). -/
theorem c19_combinations (nvib i2vib : Nat) (modes : List Mode) (t : StateTab)
    (h : newStates nvib i2vib modes = some t) (n1 n2 n3 : Nat) (hc : Mode.count modes = (n1, n2, n3))
    (m m' : Nat × Nat) (hm : m.1 = 1 ∧ m.2 < n1 ∨ m.1 = 2 ∧ m.2 < n2)
    (hm' : m'.1 = 1 ∧ m'.2 < n1 ∨ m'.1 = 2 ∧ m'.2 < n2) (hne : m ≠ m') :
    ∃ s ∈ t.states, s.occ = combOcc m m' := by
  have key : combOcc m m' ∈ t.states.map State.occ := by
    rw [c19_order nvib i2vib modes t h n1 n2 n3 hc]
    simp only [List.mem_append, List.mem_flatMap, List.mem_map, List.mem_range, List.mem_range'_1]
    obtain ⟨k, p⟩ := m
    obtain ⟨k', q⟩ := m'
    simp only at hm hm'
    rcases hm with ⟨rfl, hp⟩ | ⟨rfl, hp⟩ <;> rcases hm' with ⟨rfl, hq⟩ | ⟨rfl, hq⟩
    · have hpq : p ≠ q := by rintro rfl; exact hne rfl
      rcases Nat.lt_or_gt_of_ne hpq with hl | hl
      · exact .inr (.inl (.inr ⟨p, hp, .inl ⟨q, by omega, rfl⟩⟩))
      · exact .inr (.inl (.inr ⟨q, hq, .inl ⟨p, by omega, combOcc_comm hne.symm⟩⟩))
    · exact .inr (.inl (.inr ⟨p, hp, .inr ⟨q, hq, rfl⟩⟩))
    · exact .inr (.inl (.inr ⟨q, hq, .inr ⟨p, hp, combOcc_comm hne.symm⟩⟩))
    · have hpq : p ≠ q := by rintro rfl; exact hne rfl
      rcases Nat.lt_or_gt_of_ne hpq with hl | hl
      · exact .inr (.inr ⟨p, hp, q, by omega, rfl⟩)
      · exact .inr (.inr ⟨q, hq, p, by omega, combOcc_comm hne.symm⟩)
  simpa [List.mem_map] using key

/-- The hypotheses of the C19 theorems are met by two non-degenerate modes and a degenerate pair: ten
states. -/
example : ∃ t, newStates 4 10 [.i2 1 2, .i1 0, .i1 3] = some t ∧ t.states.length = 10 :=
  ⟨_, rfl, rfl⟩

/-! ## C20 -/

/-- C20: the fundamental table gives the position of the state with one quantum in the mode of that
index. -/
theorem c20_fundamental (nvib i2vib : Nat) (modes : List Mode) (t : StateTab)
    (h : newStates nvib i2vib modes = some t) (hn : (modes.flatMap Mode.members).Nodup)
    (i : Nat) (m : Nat × Nat) (hi : sitsIn modes i m) :
    ∃ p st, t.ifunda[i]? = some p ∧ 0 < p ∧ t.states[p]? = some st ∧ st.occ = fundOcc m := by
  obtain ⟨p, st, h1, h2, h3, h4⟩ := run_slot (by rfl) h (.fund i) (fun st => st.occ = fundOcc m)
    (fun it hit hs st hst => by
      obtain ⟨m', hm', ho⟩ := (fund_items nvib modes i).1 it hit hs
      rw [sitsIn_unique hn hi hm']
      exact ho st hst)
    ((fund_items nvib modes i).2 m hi)
  exact ⟨p, st, h1, h2, h3, h4⟩

/-- C20: the overtone table gives the position of the state with two quanta in the (non-degenerate or
doubly degenerate) mode of that index. -/
theorem c20_overtone (nvib i2vib : Nat) (modes : List Mode) (t : StateTab)
    (h : newStates nvib i2vib modes = some t) (hn : (modes.flatMap Mode.members).Nodup)
    (i : Nat) (m : Nat × Nat) (hi : sitsIn modes i m) (hk : m.1 ≤ 2) :
    ∃ p st, t.iovrtn[i]? = some p ∧ 0 < p ∧ t.states[p]? = some st ∧ st.occ = ovrOcc m := by
  obtain ⟨p, st, h1, h2, h3, h4⟩ := run_slot (by rfl) h (.ovrtn i) (fun st => st.occ = ovrOcc m)
    (fun it hit hs st hst => by
      obtain ⟨m', hm', ho⟩ := (ovr_items nvib modes i).1 it hit hs
      rw [sitsIn_unique hn hi hm']
      exact ho st hst)
    ((ovr_items nvib modes i).2 m hi hk)
  exact ⟨p, st, h1, h2, h3, h4⟩

/-- C20: the pair table gives the position of the state with one quantum in each of the two different
(non-degenerate or doubly degenerate) modes of the two indices. -/
theorem c20_combination (nvib i2vib : Nat) (modes : List Mode) (t : StateTab)
    (h : newStates nvib i2vib modes = some t) (hn : (modes.flatMap Mode.members).Nodup)
    (i j : Nat) (m m' : Nat × Nat) (hi : sitsIn modes i m) (hj : sitsIn modes j m') (hne : m ≠ m')
    (hk : m.1 ≤ 2) (hk' : m'.1 ≤ 2) :
    ∃ p st, t.icombn[pairIdx i j]? = some p ∧ 0 < p ∧ t.states[p]? = some st ∧
      st.occ = combOcc m m' := by
  obtain ⟨p, st, h1, h2, h3, h4⟩ := run_slot (by rfl) h (.combn (pairIdx i j))
    (fun st => st.occ = combOcc m m')
    (fun it hit hs st hst => by
      obtain ⟨a, b, ha, hb, ho⟩ := (comb_items nvib modes i j).1 it hit hs
      rw [sitsIn_unique hn hi ha, sitsIn_unique hn hj hb]
      rw [sitsIn_unique hn hi ha, sitsIn_unique hn hj hb] at hne
      rcases ho st hst with h | h
      · exact h
      · rw [h, combOcc_comm hne])
    ((comb_items nvib modes i j).2 m m' hi hj hne hk hk')
  exact ⟨p, st, h1, h2, h3, h4⟩

/-- The hypotheses of the C20 theorems are met: index 2 sits in the degenerate pair, index 3 is the second
non-degenerate mode, and their combination is the last of the ten states. -/
example : ∃ t, newStates 4 10 [.i2 1 2, .i1 0, .i1 3] = some t ∧
    (([.i2 1 2, .i1 0, .i1 3] : List Mode).flatMap Mode.members).Nodup ∧
    sitsIn [.i2 1 2, .i1 0, .i1 3] 2 (2, 0) ∧ sitsIn [.i2 1 2, .i1 0, .i1 3] 3 (1, 1) ∧
    t.icombn[pairIdx 2 3]? = some 9 ∧ t.iovrtn[2]? = some 6 ∧ t.ifunda[2]? = some 3 :=
  ⟨_, rfl, by decide, ⟨.i2 1 2, by decide, by decide⟩, ⟨.i1 3, by decide, by decide⟩, rfl, rfl, rfl⟩

/-! ## C21 -/

/-- C21: enumerating the states succeeds exactly when the number of modes of each degeneracy is at most the
number of vibrations (for modes made of existing indices and the usual number of pair slots). -/
theorem c21_states_iff (nvib : Nat) (modes : List Mode)
    (hb : ∀ m ∈ modes, ∀ i ∈ m.members, i < nvib) :
    (newStates nvib (nvib * (nvib + 1) / 2) modes).isSome ↔
      (Mode.count modes).1 ≤ nvib ∧ (Mode.count modes).2.1 ≤ nvib ∧ (Mode.count modes).2.2 ≤ nvib := by
  rw [c18_count]
  simp only
  have hperm := c18_complete modes
  have b1 : ∀ i ∈ (Mode.partition modes).1, i < nvib := fun i hi =>
    hb (.i1 i) (hperm.mem_iff.1 (by simp [hi])) i (by simp [Mode.members])
  have b2 : ∀ q ∈ (Mode.partition modes).2.1, q.1 < nvib ∧ q.2 < nvib := by
    intro q hq
    have hm : Mode.i2 q.1 q.2 ∈ modes := hperm.mem_iff.1 (by
      simp only [List.mem_append, List.mem_map]; exact .inl (.inr ⟨q, hq, rfl⟩))
    exact ⟨hb _ hm _ (by simp [Mode.members]), hb _ hm _ (by simp [Mode.members])⟩
  have b3 : ∀ q ∈ (Mode.partition modes).2.2, q.1 < nvib ∧ q.2.1 < nvib ∧ q.2.2 < nvib := by
    intro q hq
    have hm : Mode.i3 q.1 q.2.1 q.2.2 ∈ modes := hperm.mem_iff.1 (by
      simp only [List.mem_append, List.mem_map]; exact .inr ⟨q, hq, rfl⟩)
    exact ⟨hb _ hm _ (by simp [Mode.members]), hb _ hm _ (by simp [Mode.members]),
      hb _ hm _ (by simp [Mode.members])⟩
  have g1 : ∀ p < (Mode.partition modes).1.length, (Mode.partition modes).1.getD p 0 < nvib :=
    fun p hp => b1 _ (List.mem_of_getElem? (getD_of_lt 0 hp))
  have g2 : ∀ p < (Mode.partition modes).2.1.length,
      ((Mode.partition modes).2.1.getD p (0, 0)).1 < nvib ∧
      ((Mode.partition modes).2.1.getD p (0, 0)).2 < nvib :=
    fun p hp => b2 _ (List.mem_of_getElem? (getD_of_lt (0, 0) hp))
  have g3 : ∀ p < (Mode.partition modes).2.2.length,
      ((Mode.partition modes).2.2.getD p (0, 0, 0)).1 < nvib ∧
      ((Mode.partition modes).2.2.getD p (0, 0, 0)).2.1 < nvib ∧
      ((Mode.partition modes).2.2.getD p (0, 0, 0)).2.2 < nvib :=
    fun p hp => b3 _ (List.mem_of_getElem? (getD_of_lt (0, 0, 0) hp))
  have gp : ∀ i j, i < nvib → j < nvib → pairIdx i j < nvib * (nvib + 1) / 2 := fun i j hi hj =>
    ((c03_slots_dense nvib (pairIdx i j)).1).2 ⟨i, j, hi, hj, rfl⟩
  constructor
  · intro h
    obtain ⟨t, ht⟩ := Option.isSome_iff_exists.1 h
    obtain ⟨sts, h1, -⟩ := newStates_states ht
    have hall : ∀ it ∈ stateItems nvib modes, ∃ st, it.state = some st := by
      intro it hit
      have : it.state ∈ sts.map some := by rw [← h1]; exact List.mem_map_of_mem hit
      obtain ⟨a, -, ha⟩ := List.mem_map.1 this
      exact ⟨a, ha.symm⟩
    refine ⟨?_, ?_, ?_⟩
    · by_contra hlt
      obtain ⟨st, hst⟩ := hall _ (List.mem_append_left _ (List.mem_append_left _
        (List.mem_append_left _ (List.mem_append_left _ (List.mem_append_left _
        (List.mem_append_left _ (List.mem_map.2
          ⟨nvib, List.mem_range.2 (by omega), rfl⟩)))))))
      exact absurd (occ_of_i1 hst).1 (lt_irrefl _)
    · by_contra hlt
      obtain ⟨st, hst⟩ := hall _ (List.mem_append_left _ (List.mem_append_left _
        (List.mem_append_left _ (List.mem_append_left _ (List.mem_append_left _
        (List.mem_append_right _ (List.mem_map.2
          ⟨nvib, List.mem_range.2 (by omega), rfl⟩)))))))
      exact absurd (occ_of_i2 hst).1 (lt_irrefl _)
    · by_contra hlt
      obtain ⟨st, hst⟩ := hall _ (List.mem_append_left _ (List.mem_append_left _
        (List.mem_append_left _ (List.mem_append_left _
        (List.mem_append_right _ (List.mem_map.2
          ⟨nvib, List.mem_range.2 (by omega), rfl⟩))))))
      exact absurd (occ_of_i3 hst).1 (lt_irrefl _)
  · rintro ⟨c1, c2, c3⟩
    refine run_isSome ?_ ?_
    · intro it hit
      simp only [stateItems, fund1Items, fund2Items, fund3Items, ovr1Items, ovr2Items, comb1Items,
        comb22Items, List.mem_append, List.mem_map, List.mem_flatMap, List.mem_range,
        List.mem_range'_1] at hit
      rcases hit with (((((⟨p, hp, rfl⟩ | ⟨p, hp, rfl⟩) | ⟨p, hp, rfl⟩) | ⟨p, hp, rfl⟩) |
        ⟨p, hp, rfl⟩) | ⟨p, hp, (⟨q, hq, rfl⟩ | ⟨q, hq, rfl⟩)⟩) | ⟨p, hp, q, hq, rfl⟩
      all_goals
        have hpn : p < nvib := by omega
        try have hqn : q < nvib := by omega
        simp_all [setAt, comb11Item, comb12Item]
    · intro it hit s hs
      simp only [stateItems, fund1Items, fund2Items, fund3Items, ovr1Items, ovr2Items, comb1Items,
        comb22Items, List.mem_append, List.mem_map, List.mem_flatMap, List.mem_range,
        List.mem_range'_1] at hit
      rcases hit with (((((⟨p, hp, rfl⟩ | ⟨p, hp, rfl⟩) | ⟨p, hp, rfl⟩) | ⟨p, hp, rfl⟩) |
        ⟨p, hp, rfl⟩) | ⟨p, hp, (⟨q, hq, rfl⟩ | ⟨q, hq, rfl⟩)⟩) | ⟨p, hp, q, hq, rfl⟩
      · simp only [List.mem_singleton] at hs
        subst hs
        simpa only [slotVal, List.getElem?_eq_getElem, isSome_getElem?, List.length_replicate] using
          g1 p hp
      · simp only [List.mem_cons, List.not_mem_nil, or_false] at hs
        rcases hs with rfl | rfl
        · simpa only [slotVal, isSome_getElem?, List.length_replicate] using (g2 p hp).1
        · simpa only [slotVal, isSome_getElem?, List.length_replicate] using (g2 p hp).2
      · simp only [List.mem_cons, List.not_mem_nil, or_false] at hs
        rcases hs with rfl | rfl | rfl
        · simpa only [slotVal, isSome_getElem?, List.length_replicate] using (g3 p hp).1
        · simpa only [slotVal, isSome_getElem?, List.length_replicate] using (g3 p hp).2.1
        · simpa only [slotVal, isSome_getElem?, List.length_replicate] using (g3 p hp).2.2
      · simp only [List.mem_singleton] at hs
        subst hs
        simpa only [slotVal, isSome_getElem?, List.length_replicate] using g1 p hp
      · simp only [List.mem_cons, List.not_mem_nil, or_false] at hs
        rcases hs with rfl | rfl
        · simpa only [slotVal, isSome_getElem?, List.length_replicate] using (g2 p hp).1
        · simpa only [slotVal, isSome_getElem?, List.length_replicate] using (g2 p hp).2
      · simp only [comb11Item, List.mem_singleton] at hs
        subst hs
        simpa only [slotVal, isSome_getElem?, List.length_replicate] using
          gp _ _ (g1 p hp) (g1 q (by omega))
      · simp only [comb12Item, List.mem_cons, List.not_mem_nil, or_false] at hs
        rcases hs with rfl | rfl
        · simpa only [slotVal, isSome_getElem?, List.length_replicate] using
            gp _ _ (g1 p hp) (g2 q hq).1
        · simpa only [slotVal, isSome_getElem?, List.length_replicate] using
            gp _ _ (g1 p hp) (g2 q hq).2
      · simp only [List.mem_cons, List.not_mem_nil, or_false] at hs
        have hq' := g2 q (by omega)
        rcases hs with rfl | rfl | rfl | rfl
        · simpa only [slotVal, isSome_getElem?, List.length_replicate] using
            gp _ _ (g2 p hp).1 hq'.1
        · simpa only [slotVal, isSome_getElem?, List.length_replicate] using
            gp _ _ (g2 p hp).1 hq'.2
        · simpa only [slotVal, isSome_getElem?, List.length_replicate] using
            gp _ _ (g2 p hp).2 hq'.1
        · simpa only [slotVal, isSome_getElem?, List.length_replicate] using
            gp _ _ (g2 p hp).2 hq'.2

theorem reststNew_spherical {nvib i2vib : Nat} {zmat f3 : T3 α} {freq : Vec α} :
    reststNew .sphericalTop nvib i2vib zmat f3 freq = none := rfl

/-- C21: for asymmetric and symmetric tops, linear and diatomic molecules the whole construction succeeds
exactly when no degeneracy class has more modes than there are vibrations; for spherical tops and an unset
rotor it always panics. -/
theorem c21_restst_iff (rotor : Rotor) (nvib : Nat) (zmat f3 : T3 α) (freq : Vec α) :
    (reststNew rotor nvib (nvib * (nvib + 1) / 2) zmat f3 freq).isSome ↔
      rotor ≠ .sphericalTop ∧ rotor ≠ .none ∧
      (Mode.count (degModes rotor nvib freq)).1 ≤ nvib ∧
      (Mode.count (degModes rotor nvib freq)).2.1 ≤ nvib ∧
      (Mode.count (degModes rotor nvib freq)).2.2 ≤ nvib := by
  have hb : ∀ m ∈ degModes rotor nvib freq, ∀ i ∈ m.members, i < nvib := fun m hm i hi =>
    (c17_covers rotor nvib freq i).1 ⟨m, hm, hi⟩
  have h := c21_states_iff nvib (degModes rotor nvib freq) hb
  cases hn : newStates nvib (nvib * (nvib + 1) / 2) (degModes rotor nvib freq) with
  | none =>
    rw [hn] at h
    simp only [Option.isSome_none, Bool.false_eq_true, false_iff] at h
    constructor
    · intro hs
      exfalso
      cases rotor <;> simp [reststNew, hn, coriolis, fermi1, fermi2, darling] at hs
    · rintro ⟨-, -, hc⟩
      exact absurd hc h
  | some t =>
    rw [hn] at h
    simp only [Option.isSome_some, true_iff] at h
    cases rotor <;> simp [reststNew, hn, coriolis, fermi1, fermi2, darling, h]

/-- C21: the construction succeeds for every asymmetric top. -/
theorem c21_asymmetric (nvib : Nat) (zmat f3 : T3 α) (freq : Vec α) :
    (reststNew .asymmTop nvib (nvib * (nvib + 1) / 2) zmat f3 freq).isSome := by
  rw [c21_restst_iff, c18_count, partition_asym .asymmTop rfl]
  simp

/-- C21, the positive part for symmetric tops: when near-degeneracy is transitive and clusters have at most
three members, the construction succeeds. Missing: larger clusters panic, see `c21_violated`. -/
theorem c21_symmetric_partial (rotor : Rotor) (hr : rotor ≠ .sphericalTop) (hr' : rotor ≠ .none)
    (nvib : Nat) (zmat f3 : T3 ℝ) (freq : Vec ℝ)
    (htrans : ∀ i j k, i < nvib → j < nvib → k < nvib → 0.1 < |freq i| → 0.1 < |freq j| →
      0.1 < |freq k| → |freq i - freq j| < 0.1 → |freq j - freq k| < 0.1 → |freq i - freq k| < 0.1)
    (hthree : ∀ s : Finset Nat, (∀ a ∈ s, a < nvib ∧ 0.1 < |freq a|) →
      (∀ a ∈ s, ∀ b ∈ s, |freq a - freq b| < 0.1) → s.card ≤ 3) :
    (reststNew rotor nvib (nvib * (nvib + 1) / 2) zmat f3 freq).isSome := by
  rw [c21_restst_iff, c18_count]
  refine ⟨hr, hr', ?_⟩
  obtain ⟨hnd, hmem⟩ := c17_exactly_once_partial rotor nvib freq htrans hthree
  have hlen : ((degModes rotor nvib freq).flatMap Mode.members).length ≤ nvib := by
    have : ((degModes rotor nvib freq).flatMap Mode.members).toFinset ⊆ Finset.range nvib := by
      intro i hi
      rw [List.mem_toFinset] at hi
      exact Finset.mem_range.2 ((hmem i).1 hi)
    have := Finset.card_le_card this
    rwa [List.toFinset_card_of_nodup hnd, Finset.card_range] at this
  have hle : (degModes rotor nvib freq).length ≤ nvib := by
    refine le_trans ?_ hlen
    generalize degModes rotor nvib freq = l
    induction l with
    | nil => simp
    | cons m l ih =>
      have : 1 ≤ m.members.length := by cases m <;> simp [Mode.members]
      simp only [List.flatMap_cons, List.length_append, List.length_cons]
      omega
  have hp := (c18_complete (degModes rotor nvib freq)).length_eq
  simp only [List.length_append, List.length_map] at hp
  refine ⟨?_, ?_, ?_⟩ <;> simp only <;> omega

/-- The hypotheses of `c21_symmetric_partial` are met by a degenerate pair and a separate mode. -/
example (zmat f3 : T3 ℝ) : (reststNew .oblateSymmTop 3 (3 * (3 + 1) / 2) zmat f3 freqPair).isSome := by
  refine c21_symmetric_partial .oblateSymmTop (by simp) (by simp) 3 zmat f3 freqPair ?_ ?_
  · intro i j k _ _ _ _ _ _ h1 h2
    simp only [freqPair] at *
    split_ifs at * <;> norm_num at *
  · intro s hs hc
    have hsub : s ⊆ Finset.range 3 := fun a ha => Finset.mem_range.2 (hs a ha).1
    simpa using Finset.card_le_card hsub

/-- C21 is violated: a symmetric top with five equal frequencies has ten "triples" and building the tables
indexes out of bounds. -/
theorem c21_violated (zmat f3 : T3 ℝ) :
    reststNew .oblateSymmTop 5 (5 * (5 + 1) / 2) zmat f3 (fun _ => (1000 : ℝ)) = none := by
  rw [← Option.not_isSome_iff_eq_none, c21_restst_iff]
  rintro ⟨-, -, -, -, h⟩
  rw [c18_count] at h
  have hp := (c18_order (degModes .oblateSymmTop 5 (fun _ => (1000 : ℝ)))).2.2
  have hl := congrArg List.length hp
  rw [List.length_map] at hl
  have ht : degTriples 5 (fun _ => (1000 : ℝ)) = incTriples 5 := by
    unfold degTriples
    rw [List.filter_eq_self]
    intro p _
    simp [close, DEG_TOL, lt_real, lit_real, abs_real]
    norm_num
  have hsub : (List.Sublist ((incTriples 5).map fun p => Mode.i3 p.1 p.2.1 p.2.2)
      (degModes .oblateSymmTop 5 (fun _ => (1000 : ℝ)))) := by
    unfold degModes
    rw [if_pos (show Rotor.oblateSymmTop.isSymTop = true from rfl), ht, List.append_assoc]
    exact List.sublist_append_left _ _
  have h2 := (hsub.filter fun m => decide (m.degree = 3)).length_le
  rw [← hl] at h2
  have h3 : (((incTriples 5).map fun p => Mode.i3 p.1 p.2.1 p.2.2).filter
      fun m => decide (m.degree = 3)).length = 10 := by decide
  simp only at h
  omega

/-! ## C76 -/

/-- The three vectors that `State.partition` lists for a state. -/
def State.parts : State → List Nat × List (Nat × Nat) × List Nat
  | .i1st v => (v, List.replicate v.length (0, 0), List.replicate v.length 0)
  | .i2st v => (List.replicate v.length 0, v, List.replicate v.length 0)
  | .i3st v => (List.replicate v.length 0, List.replicate v.length (0, 0), v)
  | .i12st a b => (a, b, List.replicate a.length 0)

theorem partition_parts (states : List State) : (State.partition states).i1sts = states.map (fun s => s.parts.1) ∧
    (State.partition states).i2sts = states.map (fun s => s.parts.2.1) ∧
    (State.partition states).i3sts = states.map (fun s => s.parts.2.2) := by
  unfold State.partition
  induction states using List.reverseRecOn with
  | nil => exact ⟨rfl, rfl, rfl⟩
  | append_singleton l s ih =>
    obtain ⟨h1, h2, h3⟩ := ih
    rw [List.foldl_append, List.foldl_cons, List.foldl_nil, List.map_append, List.map_append, List.map_append]
    cases s <;> simp [State.parts, h1, h2, h3]

/-- C76: partitioning a list of states gives, at the position of each state, three vectors that hold exactly its quanta
in the modes of each degeneracy. -/
theorem c76_partition (states : List State) :
    (State.partition states).i1sts.length = states.length ∧ (State.partition states).i2sts.length = states.length ∧
    (State.partition states).i3sts.length = states.length ∧
    ∀ (k : Nat) s, states[k]? = some s → ∃ a b c, (State.partition states).i1sts[k]? = some a ∧
      (State.partition states).i2sts[k]? = some b ∧ (State.partition states).i3sts[k]? = some c ∧
      (∀ q, s.occ (1, q) = (a.getD q 0, 0) ∧ s.occ (2, q) = b.getD q (0, 0) ∧ s.occ (3, q) = (c.getD q 0, 0)) ∧
      ∀ n, s.len = some n → a.length = n ∧ b.length = n ∧ c.length = n := by
  obtain ⟨h1, h2, h3⟩ := partition_parts states
  rw [h1, h2, h3]
  refine ⟨by simp, by simp, by simp, fun k s hk => ⟨s.parts.1, s.parts.2.1, s.parts.2.2, by simp [hk], by simp [hk],
    by simp [hk], fun q => ?_, fun n hn => ?_⟩⟩
  · have z : ∀ (m : Nat), (List.replicate m 0).getD q 0 = 0 := fun m => by
      simp [List.getD_eq_getElem?_getD, List.getElem?_replicate]; split <;> rfl
    have z2 : ∀ (m : Nat), (List.replicate m ((0, 0) : Nat × Nat)).getD q (0, 0) = (0, 0) := fun m => by
      simp [List.getD_eq_getElem?_getD, List.getElem?_replicate]; split <;> rfl
    cases s <;> simp only [State.parts, State.occ, z, z2, and_self]
  · cases s <;> simp only [State.len, Option.some.injEq] at hn
    · subst hn; simp [State.parts]
    · subst hn; simp [State.parts]
    · subst hn; simp [State.parts]
    · split at hn
      · rename_i h
        simp only [Option.some.injEq] at hn
        subst hn
        simp [State.parts, h]
      · simp at hn

/-- Non-vacuity: a fundamental of a triply degenerate mode and a combination band. -/
example : State.occ (.i3st [0, 1]) (3, 1) = (1, 0) ∧ State.len (.i12st [1, 0] [(0, 0), (1, 1)]) = some 2 ∧
    State.occ (.i12st [1, 0] [(0, 0), (1, 1)]) (2, 1) = (1, 1) := by decide

/-- C76: all states that the enumeration builds have as many entries as there are vibrations. -/
theorem c76_len (nvib i2vib : Nat) (modes : List Mode) (t : StateTab) (h : newStates nvib i2vib modes = some t)
    (s : State) (hs : s ∈ t.states) : s.len = some nvib := by
  obtain ⟨sts, h1, h2⟩ := newStates_states h
  rw [h2] at hs
  rcases List.mem_cons.1 hs with rfl | hs
  · simp [State.len]
  have : some s ∈ (stateItems nvib modes).map (·.state) := by
    rw [h1]
    exact List.mem_map_of_mem hs
  obtain ⟨it, hit, he⟩ := List.mem_map.1 this
  simp only [stateItems, fund1Items, fund2Items, fund3Items, ovr1Items, ovr2Items, comb1Items, comb22Items,
    List.mem_append, List.mem_map, List.mem_flatMap] at hit
  rcases hit with (((((⟨_, -, rfl⟩ | ⟨_, -, rfl⟩) | ⟨_, -, rfl⟩) | ⟨_, -, rfl⟩) | ⟨_, -, rfl⟩) |
    ⟨_, -, ⟨_, -, rfl⟩ | ⟨_, -, rfl⟩⟩) | ⟨_, -, _, -, rfl⟩
  all_goals
    simp only [comb11Item, comb12Item, Option.map_eq_some_iff, Option.bind_eq_some_iff, setAt_some] at he
  · obtain ⟨_, ⟨-, rfl⟩, rfl⟩ := he; simp [State.len]
  · obtain ⟨_, ⟨-, rfl⟩, rfl⟩ := he; simp [State.len]
  · obtain ⟨_, ⟨-, rfl⟩, rfl⟩ := he; simp [State.len]
  · obtain ⟨_, ⟨-, rfl⟩, rfl⟩ := he; simp [State.len]
  · obtain ⟨_, ⟨-, rfl⟩, rfl⟩ := he; simp [State.len]
  · obtain ⟨_, ⟨_, ⟨-, rfl⟩, -, rfl⟩, rfl⟩ := he; simp [State.len]
  · obtain ⟨_, ⟨-, rfl⟩, _, ⟨-, rfl⟩, rfl⟩ := he; simp [State.len]
  · obtain ⟨_, ⟨_, ⟨-, rfl⟩, -, rfl⟩, rfl⟩ := he; simp [State.len]

/-- Non-vacuity: the enumeration for one non-degenerate and one doubly degenerate mode succeeds. -/
example : (newStates 3 6 [.i1 0, .i2 1 2]).map (·.states.length) = some 6 := by decide

end Verif
