import Verif.Props.Run
import Verif.Props.AlphaSym

/-! Lemmas about completed runs of symmetric tops, linear and diatomic molecules. -/

namespace Verif

/-! ### The tables of states -/

theorem writeSlots_isSome_iff {slots : List Slot} {t t' : StateTab} (h : slots.foldlM writeSlot t = some t') (s : Slot) :
    (slotVal t' s).isSome ↔ (slotVal t s).isSome := by
  induction slots generalizing t with
  | nil =>
    obtain rfl := Option.some.inj (show some t = some t' from h)
    rfl
  | cons x xs ih =>
    simp only [List.foldlM_cons, Option.bind_eq_bind, Option.bind_eq_some_iff] at h
    obtain ⟨t1, h1, h2⟩ := h
    exact (ih h2).trans (slotVal_isSome_write h1 s)

theorem stateStep_isSome_iff {t t' : StateTab} {it : StateItem} (h : stateStep t it = some t') (s : Slot) :
    (slotVal t' s).isSome ↔ (slotVal t s).isSome := by
  simp only [stateStep, Option.bind_eq_bind, Option.bind_eq_some_iff, Option.pure_def, Option.some.injEq] at h
  obtain ⟨st, -, t1, h1, rfl⟩ := h
  have := writeSlots_isSome_iff h1 s
  cases s <;> exact this

/-- All entries of the tables name listed states, and the tables keep their sizes. -/
theorem newStates_slots {nvib i2vib : Nat} {modes : List Mode} {t : StateTab} (h : newStates nvib i2vib modes = some t)
    (s : Slot) : (∀ v, slotVal t s = some v → v < t.states.length) ∧
      ((slotVal t s).isSome ↔ match s with
        | .fund i => i < nvib
        | .ovrtn i => i < nvib
        | .combn i => i < i2vib) := by
  have key := foldlM_option_inv (fun t : StateTab => t.ist = t.states.length ∧
    (∀ s v, slotVal t s = some v → v < t.states.length) ∧
    ∀ s, (slotVal t s).isSome ↔ match s with
        | .fund i => i < nvib
        | .ovrtn i => i < nvib
        | .combn i => i < i2vib) stateStep (stateItems nvib modes) _ t ?_ ?_ h
  · exact ⟨key.2.1 s, key.2.2 s⟩
  · refine ⟨rfl, ?_, ?_⟩
    · intro s v hv
      cases s <;> simp [slotVal, List.getElem?_replicate] at hv <;> simp <;> omega
    · intro s
      cases s <;> simp [slotVal]
  · rintro t it t' - ⟨h1, h2, h3⟩ h
    obtain ⟨st, -, e2, e3, e4, e5⟩ := stateStep_some h
    have hl : t'.states.length = t.states.length + 1 := by rw [e2]; simp
    refine ⟨by omega, ?_, fun s => (stateStep_isSome_iff h s).trans (h3 s)⟩
    intro s v hv
    by_cases hs : s ∈ it.slots
    · rw [e4 s hs] at hv
      obtain rfl := Option.some.inj hv
      omega
    · rw [e5 s hs] at hv
      have := h2 s v hv
      omega

theorem slot_fund {nvib i2vib : Nat} {modes : List Mode} {t : StateTab} (h : newStates nvib i2vib modes = some t)
    {i : Nat} (hi : i < nvib) : ∃ v, t.ifunda[i]? = some v ∧ v < t.states.length := by
  obtain ⟨h1, h2⟩ := newStates_slots h (.fund i)
  obtain ⟨v, hv⟩ := Option.isSome_iff_exists.1 (h2.2 hi)
  exact ⟨v, hv, h1 v hv⟩

theorem slot_ovrtn {nvib i2vib : Nat} {modes : List Mode} {t : StateTab} (h : newStates nvib i2vib modes = some t)
    {i : Nat} (hi : i < nvib) : ∃ v, t.iovrtn[i]? = some v ∧ v < t.states.length := by
  obtain ⟨h1, h2⟩ := newStates_slots h (.ovrtn i)
  obtain ⟨v, hv⟩ := Option.isSome_iff_exists.1 (h2.2 hi)
  exact ⟨v, hv, h1 v hv⟩

theorem slot_combn {nvib i2vib : Nat} {modes : List Mode} {t : StateTab} (h : newStates nvib i2vib modes = some t)
    (h2i : i2vib = nvib * (nvib + 1) / 2) {i j : Nat} (hi : i < nvib) (hj : j < nvib) :
    ∃ v, t.icombn[pairIdx i j]? = some v ∧ v < t.states.length := by
  obtain ⟨h1, h2⟩ := newStates_slots h (.combn (pairIdx i j))
  have hlt : pairIdx i j < i2vib := by
    rw [h2i]
    exact (c03_slots_dense nvib _).1.2 ⟨i, j, hi, hj, rfl⟩
  obtain ⟨v, hv⟩ := Option.isSome_iff_exists.1 (h2.2 hlt)
  exact ⟨v, hv, h1 v hv⟩

/-! ### The energies -/

/-- The modes named by a call. -/
def MixCall.Within (n : Nat) : MixCall → Prop
  | .type1 i j _ => i < n ∧ j < n
  | .type2 i j k => i < n ∧ j < n ∧ k < n

theorem mixCalls_within (r : Restst) (n : Nat) (h1 : ∀ i ∈ (Mode.partition r.modes).1, i < n)
    (h2 : ∀ p ∈ (Mode.partition r.modes).2.1, p.1 < n) (hf1 : ∀ f ∈ r.fermi1, f.j < n) (hf2 : ∀ f ∈ r.fermi2, f.k < n)
    (c : MixCall) (hc : c ∈ mixCalls (makeFermiChecks r.fermi1 r.fermi2) r.modes) : c.Within n := by
  have target1 : ∀ i j, (makeFermiChecks r.fermi1 r.fermi2).ifrm1 i = some j → j < n := by
    intro i j h
    exact hf1 _ (ifrm1_listed (show (makeFermiChecks r.fermi1 r.fermi2).ifrm1.check i j = true by
      simp [HMap.check, h]))
  have target2 : ∀ i j k, (makeFermiChecks r.fermi1 r.fermi2).ifrm2 (i, j) = some k → k < n := by
    intro i j k h
    rcases ifrm2_listed (show (makeFermiChecks r.fermi1 r.fermi2).ifrm2.check (i, j) k = true by
      simp [HMap.check, h]) with ⟨-, hl⟩ | hl | hl
    · exact hf1 _ hl
    · exact hf2 _ hl
    · exact hf2 _ hl
  have target3 : ∀ i j k, (makeFermiChecks r.fermi1 r.fermi2).ifrm2.getEither (i, j) = some k → k < n := by
    intro i j k h
    unfold HMap.getEither at h
    split at h
    · next e he =>
      obtain rfl := Option.some.inj h
      exact target2 _ _ _ he
    · exact target2 _ _ _ h
  have s1 : ∀ p < (Mode.partition r.modes).1.length, (Mode.partition r.modes).1.getD p 0 < n := fun p hp =>
    h1 _ (getD_mem 0 hp)
  have s2 : ∀ p < (Mode.partition r.modes).2.1.length, ((Mode.partition r.modes).2.1.getD p (0, 0)).1 < n :=
    fun p hp => h2 _ (getD_mem (0, 0) hp)
  simp only [mixCalls, List.mem_append] at hc
  rcases hc with (hc | hc) | hc
  · simp only [mixCalls1, List.mem_flatMap, List.mem_range, List.mem_append, List.mem_range'_1] at hc
    obtain ⟨a, ha, hc | ⟨b, hb, hc⟩⟩ := hc
    · split at hc
      · next j hj =>
        obtain rfl := List.mem_singleton.1 hc
        exact ⟨s1 a ha, target1 _ _ hj⟩
      · simp at hc
    · split at hc
      · next k hk =>
        obtain rfl := List.mem_singleton.1 hc
        exact ⟨s1 a ha, s1 b (by omega), target2 _ _ _ hk⟩
      · simp at hc
  · simp only [mixCalls12, List.mem_flatMap] at hc
    obtain ⟨a, ha, q, hq, hc⟩ := hc
    split at hc
    · next k hk =>
      obtain rfl := List.mem_singleton.1 hc
      exact ⟨h1 a ha, h2 q hq, target3 _ _ _ hk⟩
    · simp at hc
  · simp only [mixCalls2, List.mem_flatMap, List.mem_range, List.mem_append, List.mem_range'_1] at hc
    obtain ⟨a, ha, hc | ⟨b, hb, hc⟩⟩ := hc
    · split at hc
      · next j hj =>
        obtain rfl := List.mem_singleton.1 hc
        exact ⟨s2 a ha, target1 _ _ hj⟩
      · simp at hc
    · split at hc
      · next k hk =>
        obtain rfl := List.mem_singleton.1 hc
        exact ⟨s2 a ha, s2 b (by omega), target3 _ _ _ hk⟩
      · simp at hc

variable {α : Type} [Arith α]

/-- The energies can be computed whatever resonances are listed, if these name modes and there are g constants for the
degenerate modes. -/
theorem enrgy_runs_deg (eigen : Eigen2 α) (he : ∀ p v q, (eigen p v q).1.length = 2) (w : Vec α) (x : Mat α)
    (g : Option (Mat α)) (r : Restst) (f3 : T3 α) (e0 : α) (init : List α) (nvib i2vib : Nat) (t : StateTab)
    (ht : newStates nvib i2vib r.modes = some t) (h2i : i2vib = nvib * (nvib + 1) / 2) (hs : r.states = t.states)
    (hfu : r.ifunda = t.ifunda) (hov : r.iovrtn = t.iovrtn) (hco : r.icombn = t.icombn)
    (h1 : ∀ i ∈ (Mode.partition r.modes).1, i < nvib) (h2 : ∀ p ∈ (Mode.partition r.modes).2.1, p.1 < nvib)
    (hf1 : ∀ f ∈ r.fermi1, f.j < nvib) (hf2 : ∀ f ∈ r.fermi2, f.k < nvib)
    (hi : init.length = r.states.length) (hg : (Mode.partition r.modes).2.1 = [] ∨ g.isSome) :
    (enrgy eigen w x g r f3 e0 init).isSome := by
  have hl := newStates_len ht
  have hp := part_le_nvib ht
  rw [← part_nonDeg, ← part_degPairs] at hp
  have hst : (r.states.mapM fun s => stateEnergy (Mode.partition r.modes).1 (Mode.partition r.modes).2.1 w x g e0
      s.v1 s.v2).isSome := by
    refine mapM_runs fun st hst => ?_
    obtain ⟨g1, g2⟩ := hl st (hs ▸ hst)
    unfold stateEnergy
    dsimp only
    rw [if_pos ⟨by omega, by omega⟩, Option.isSome_map, engVal6]
    split
    · rfl
    · next hne =>
      rcases hg with hg | hg
      · rw [hg] at hne
        simp at hne
      · rw [Option.isSome_map, hg]
  obtain ⟨eng0, h0⟩ := Option.isSome_iff_exists.1 hst
  unfold enrgy
  dsimp only
  rw [part1_eq _ _ _ _ _ _ _ _ hi, h0, Option.bind_eq_bind, Option.bind_some]
  obtain ⟨e, he', -⟩ := foldlM_runs (fun l : List α => l.length = r.states.length)
    (fun eng c => MixCall.exec eigen r.ifunda r.iovrtn r.icombn f3 eng c)
    (mixCalls (makeFermiChecks r.fermi1 r.fermi2) r.modes) eng0 (mapM_some_length h0).1 (by
      intro l c hc hl
      have hp := mixCalls_within r nvib h1 h2 hf1 hf2 c hc
      have hrun : (c.exec eigen r.ifunda r.iovrtn r.icombn f3 l).isSome := by
        cases c with
        | type1 i j d =>
          obtain ⟨hi, hj⟩ := hp
          obtain ⟨p, hp, hp0⟩ := slot_ovrtn ht hi
          obtain ⟨q, hq, hq0⟩ := slot_fund ht hj
          simp only [MixCall.exec, hfu, hov, hp, hq, Option.bind_eq_bind, Option.bind_some, rsfrm1]
          exact mixLevels_runs _ he _ _ _ _ _ (by rw [hl, hs]; exact hp0) (by rw [hl, hs]; exact hq0)
        | type2 i j k =>
          obtain ⟨hi, hj, hk⟩ := hp
          obtain ⟨p, hp, hp0⟩ := slot_combn ht h2i hi hj
          obtain ⟨q, hq, hq0⟩ := slot_fund ht hk
          simp only [MixCall.exec, hfu, hco, hp, hq, Option.bind_eq_bind, Option.bind_some, rsfrm2]
          exact mixLevels_runs _ he _ _ _ _ _ (by rw [hl, hs]; exact hp0) (by rw [hl, hs]; exact hq0)
      obtain ⟨l', hl'⟩ := Option.isSome_iff_exists.1 hrun
      exact ⟨l', hl', by rw [exec_length hl', hl]⟩)
  rw [he']
  rfl

/-- The corrected fundamentals can be read off. -/
theorem correctedFunds_runs (eigen : Eigen2 α) (w : Vec α) (x : Mat α) (g : Option (Mat α)) (r : Restst) (f3 : T3 α)
    (e0 : α) (init : List α) (nvib i2vib : Nat) (t : StateTab) (ht : newStates nvib i2vib r.modes = some t)
    (hs : r.states = t.states) (hi : init.length = r.states.length) (h : (enrgy eigen w x g r f3 e0 init).isSome) :
    (correctedFunds eigen w x g r f3 e0 init).isSome := by
  obtain ⟨eng, heng⟩ := Option.isSome_iff_exists.1 h
  have hel := enrgy_length hi heng
  have hc := c19_length _ _ _ _ ht (Mode.count r.modes).1 (Mode.count r.modes).2.1 (Mode.count r.modes).2.2 rfl
  rw [hs] at hel
  unfold correctedFunds
  simp only [heng, Option.bind_eq_bind, Option.bind_some, List.getElem?_eq_getElem (show 0 < eng.length by omega)]
  have hrun : ((List.range' 1 ((Mode.count r.modes).1 + (Mode.count r.modes).2.1 + (Mode.count r.modes).2.2)).mapM
      fun i => (eng[i]?).bind fun e => pure (e - eng[0])).isSome := by
    refine mapM_runs fun i hi => ?_
    rw [List.mem_range'_1] at hi
    rw [List.getElem?_eq_getElem (by omega)]
    rfl
  obtain ⟨c, hc⟩ := Option.isSome_iff_exists.1 hrun
  rw [hc]
  rfl

theorem rots_runs (rotor : Rotor) (rotcon : Vec α) (rotnst : Mat α) (states : List State) (q : Quartic α) :
    (rots rotor states.length rotcon rotnst states q).isSome := by
  obtain ⟨L, hL, -⟩ := foldlM_runs (fun _ : List (Rot α) => True) (rotsStep rotor rotcon rotnst states q)
    (List.range states.length) [] trivial (by
      intro l n hn _
      rw [List.mem_range] at hn
      unfold rotsStep
      rw [List.getElem?_eq_getElem hn]
      dsimp only
      split
      · split <;> exact ⟨_, rfl, trivial⟩
      · exact ⟨_, rfl, trivial⟩)
  rw [rots, hL]
  rfl

theorem makeSymFunds_runs (modes : List Mode) (freq : Vec α) (x g : Mat α) :
    (makeSymFunds modes freq x (some g)).isSome := by
  unfold makeSymFunds
  dsimp only
  rw [Option.isSome_map]
  exact mapM_runs fun i _ => rfl

theorem quartic_runs (r : Rotor) (hr : r = .oblateSymmTop ∨ r = .prolateSymmTop ∨ r = .linear ∨ r = .diatomic) (nvib : Nat)
    (rotcon primat freq : Vec α) (wila : Mat α) : ∃ q, Quartic.new r nvib rotcon primat freq wila = some q := by
  rcases hr with rfl | rfl | rfl | rfl
  · unfold Quartic.new quarticAsym
    simp only [quarticRep, Option.bind_eq_bind, Option.bind_some, Rotor.spectroLinear, Rotor.isSymTop]
    simp only [reduceCtorEq, if_false, Bool.false_eq_true]
    split
    · split <;> exact ⟨_, rfl⟩
    · next h => exact absurd rfl h
  · unfold Quartic.new quarticAsym
    simp only [quarticRep, Option.bind_eq_bind, Option.bind_some, Rotor.spectroLinear, Rotor.isSymTop]
    simp only [reduceCtorEq, if_false, Bool.false_eq_true]
    split
    · split <;> exact ⟨_, rfl⟩
    · next h => exact absurd rfl h
  · exact ⟨_, rfl⟩
  · exact ⟨_, rfl⟩

end Verif
