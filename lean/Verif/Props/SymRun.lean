import Verif.Lemmas.SymRun

/-!
# C99: which runs of symmetric tops, linear and diatomic molecules complete
-/

namespace Verif

/-- The reference atom (components `n`, `n + 1`, `n + 2` of the displacements) moves enough in one of the modes `i` and
`j` for their angle to be found: perpendicular to the axis for a linear molecule, anywhere otherwise. The bounds are
those of the code. -/
def Alignable (linear : Bool) (n i j : Nat) (l : Nat → Nat → ℝ) : Prop :=
  (∃ r ∈ [n, n + 1], ∃ m ∈ [i, j], 1 / 100000 ≤ |l r m|) ∨
    linear = false ∧ ∃ m ∈ [i, j], 1 / 100000 < |l (n + 2) m|

/-- No mode has two neighbours closer than `tol`. -/
def Paired (nvib : Nat) (tol : ℝ) (f : Nat → ℝ) : Prop :=
  ∀ i j k, i < nvib → j < nvib → k < nvib → i ≠ j → i ≠ k → j ≠ k → |f i - f j| < tol → tol ≤ |f j - f k|

theorem alignAngle_iff (linear : Bool) (n i j : Nat) (l : Mat ℝ) :
    (alignAngle linear n i j l).isSome ↔ Alignable linear n i j l := by
  have ht : ∀ r m, tiny l r m = false ↔ 1 / 100000 ≤ |l r m| := by
    intro r m
    rw [← Bool.not_eq_true, tiny_iff, not_lt]
  have hz : ∀ m, Arith.lt (TOLER : ℝ) (Arith.abs (l (n + 2) m)) = true ↔ 1 / 100000 < |l (n + 2) m| := by
    intro m
    rw [lt_real, abs_real, toler_real]
  have e : Alignable linear n i j l ↔ (allTiny n i j l = false ∨ linear = false ∧
      (Arith.lt (TOLER : ℝ) (Arith.abs (l (n + 2) i)) = true ∨
        Arith.lt (TOLER : ℝ) (Arith.abs (l (n + 2) j)) = true)) := by
    simp only [Alignable, allTiny, hz, Bool.and_eq_false_iff, ht, List.mem_cons, List.not_mem_nil, or_false,
      exists_eq_or_imp, exists_eq_left, or_assoc]
  rw [e]
  unfold alignAngle
  dsimp only
  cases h1 : allTiny n i j l with
  | false =>
    simp only [Bool.not_false, if_true, true_or, iff_true]
    split_ifs <;> rfl
  | true =>
    cases linear with
    | true => simp
    | false =>
      simp only [Bool.not_true, Bool.false_eq_true, if_false, false_or, true_and, Bool.true_eq_false]
      split
      · next h => simp [h]
      · next h =>
        split
        · next h' => simp [h']
        · next h' => simp [h, h']

theorem alignStep_iff (cfg : AlignCfg) (freq w : Vec ℝ) (st : Mat ℝ × Mat ℝ) (p : Nat × Nat) :
    (alignStep cfg freq w st p).isSome ↔ (|freq p.1 - freq p.2| < alignTol cfg.linear →
      Alignable cfg.linear (3 * cfg.iatom) p.1 p.2 st.1 ∧ (cfg.linear = true ∨ cfg.buddy.isSome)) := by
  unfold alignStep close
  rw [abs_real]
  split
  · next h =>
    rw [lt_real] at h
    simp only [h, true_imp_iff]
    rw [← alignAngle_iff]
    simp only [alignLxm, Option.bind_eq_bind]
    cases ha : alignAngle cfg.linear (3 * cfg.iatom) p.1 p.2 st.1 with
    | none => simp
    | some θ =>
      simp only [Option.bind_some, Option.isSome_some, true_and]
      unfold fixSign
      cases hl : cfg.linear with
      | true => simp
      | false =>
        cases hb : cfg.buddy with
        | none => simp
        | some b => simp
  · next h =>
    rw [lt_real] at h
    simp [h]

theorem alignStep_other {cfg : AlignCfg} {freq w : Vec ℝ} {st st' : Mat ℝ × Mat ℝ} {p : Nat × Nat} (hp : p.1 ≠ p.2)
    (h : alignStep cfg freq w st p = some st') (j : Nat) (h1 : j ≠ p.1) (h2 : j ≠ p.2) (r : Nat) :
    st'.1 r j = st.1 r j := by
  unfold alignStep at h
  split at h
  · simp only [Option.bind_eq_bind, Option.bind_eq_some_iff] at h
    obtain ⟨l, hl, h⟩ := h
    obtain rfl := Option.some.inj h
    obtain ⟨θ, e, -, -, ht⟩ := alignLxm_turned hp hl
    show l r j = _
    rw [ht r j, if_neg h1, if_neg h2]
    simp
  · obtain rfl := Option.some.inj h
    rfl

theorem alignable_congr {linear : Bool} {n i j : Nat} {l l' : Mat ℝ} (hi : ∀ r, l' r i = l r i)
    (hj : ∀ r, l' r j = l r j) : Alignable linear n i j l' ↔ Alignable linear n i j l := by
  simp only [Alignable, List.mem_cons, List.not_mem_nil, or_false, exists_eq_or_imp, exists_eq_left, hi, hj]

theorem alignFold_iff (cfg : AlignCfg) (freq w : Vec ℝ) (L : List (Nat × Nat)) (hL : ∀ p ∈ L, p.1 ≠ p.2)
    (hd : L.Pairwise fun p q => |freq p.1 - freq p.2| < alignTol cfg.linear →
      |freq q.1 - freq q.2| < alignTol cfg.linear → q.1 ≠ p.1 ∧ q.1 ≠ p.2 ∧ q.2 ≠ p.1 ∧ q.2 ≠ p.2)
    (st : Mat ℝ × Mat ℝ) :
    (L.foldlM (alignStep cfg freq w) st).isSome ↔ ∀ p ∈ L, |freq p.1 - freq p.2| < alignTol cfg.linear →
      Alignable cfg.linear (3 * cfg.iatom) p.1 p.2 st.1 ∧ (cfg.linear = true ∨ cfg.buddy.isSome) := by
  induction L generalizing st with
  | nil => simp
  | cons p L ih =>
    rw [List.pairwise_cons] at hd
    have hp := alignStep_iff cfg freq w st p
    rw [List.foldlM_cons, Option.bind_eq_bind]
    rw [List.forall_mem_cons]
    cases hs : alignStep cfg freq w st p with
    | none =>
      rw [hs] at hp
      simp only [Option.isSome_none, Bool.false_eq_true, false_iff] at hp
      simp only [Option.bind_none, Option.isSome_none, Bool.false_eq_true, false_iff, not_and]
      exact fun h => absurd h hp
    | some st' =>
      rw [hs] at hp
      have hp' := hp.1 rfl
      rw [Option.bind_some, ih (fun q hq => hL q (by simp [hq])) hd.2]
      constructor
      · refine fun h => ⟨hp', fun q hq hc => ?_⟩
        obtain ⟨a, b⟩ := h q hq hc
        refine ⟨?_, b⟩
        by_cases hpc : |freq p.1 - freq p.2| < alignTol cfg.linear
        · obtain ⟨d1, d2, d3, d4⟩ := hd.1 q hq hpc hc
          exact (alignable_congr (fun r => alignStep_other (hL p (by simp)) hs _ d1 d2 r)
            (fun r => alignStep_other (hL p (by simp)) hs _ d3 d4 r)).1 a
        · have : st' = st := by
            unfold alignStep close at hs
            rw [abs_real, if_neg (by rw [lt_real]; exact hpc)] at hs
            exact (Option.some.inj hs).symm
          rwa [this] at a
      · rintro ⟨-, h⟩ q hq hc
        obtain ⟨a, b⟩ := h q hq hc
        refine ⟨?_, b⟩
        by_cases hpc : |freq p.1 - freq p.2| < alignTol cfg.linear
        · obtain ⟨d1, d2, d3, d4⟩ := hd.1 q hq hpc hc
          exact (alignable_congr (fun r => alignStep_other (hL p (by simp)) hs _ d1 d2 r)
            (fun r => alignStep_other (hL p (by simp)) hs _ d3 d4 r)).2 a
        · have : st' = st := by
            unfold alignStep close at hs
            rw [abs_real, if_neg (by rw [lt_real]; exact hpc)] at hs
            exact (Option.some.inj hs).symm
          rwa [this]

/-- C99: when near-degenerate modes come in separate pairs, they can be aligned exactly when in each pair the reference
atom moves, and, unless the molecule is linear, an equivalent atom is known. -/
theorem c99_align_iff (cfg : AlignCfg) (freq w : Vec ℝ) (lxm lx : Mat ℝ) (hv : 0 < cfg.nvib)
    (hp : Paired cfg.nvib (if cfg.linear then 1 else 0.05) freq) :
    (bdegnl cfg freq w lxm lx).isSome ↔ ∀ i j, i < j → j < cfg.nvib →
      |freq i - freq j| < (if cfg.linear then 1 else 0.05) →
      Alignable cfg.linear (3 * cfg.iatom) i j lxm ∧ (cfg.linear = true ∨ cfg.buddy.isSome) := by
  have et : (if cfg.linear then 1 else 0.05 : ℝ) = alignTol cfg.linear := by
    rw [alignTol_real]
    split <;> norm_num
  rw [et] at hp ⊢
  unfold bdegnl
  rw [if_neg (by omega), alignFold_iff]
  · constructor
    · intro h i j hij hj hc
      exact h (i, j) (mem_incPairs.2 ⟨hij, hj⟩) hc
    · intro h p hp hc
      obtain ⟨a, b⟩ := incPairs_lt hp
      exact h p.1 p.2 a b hc
  · intro p hp
    have := incPairs_lt hp
    omega
  · have hnd := incPairs_nodup cfg.nvib
    rw [List.nodup_iff_pairwise_ne] at hnd
    refine hnd.imp_of_mem ?_
    intro p q hpm hqm hne hpc hqc
    obtain ⟨p1, p2⟩ := incPairs_lt hpm
    obtain ⟨q1, q2⟩ := incPairs_lt hqm
    have hpc' : |freq p.2 - freq p.1| < alignTol cfg.linear := by rwa [abs_sub_comm]
    have hqc' : |freq q.2 - freq q.1| < alignTol cfg.linear := by rwa [abs_sub_comm]
    have hne' : p.1 ≠ q.1 ∨ p.2 ≠ q.2 := by
      by_contra h
      simp only [not_or, not_not] at h
      exact hne (Prod.ext h.1 h.2)
    refine ⟨?_, ?_, ?_, ?_⟩ <;> intro e
    · have := hp p.2 p.1 q.2 (by omega) (by omega) (by omega) (by omega) (by omega) (by omega) hpc'
      rw [← e] at this
      linarith
    · have := hp p.1 p.2 q.2 (by omega) (by omega) (by omega) (by omega) (by omega) (by omega) hpc
      rw [← e] at this
      linarith
    · have := hp p.2 p.1 q.1 (by omega) (by omega) (by omega) (by omega) (by omega) (by omega) hpc'
      rw [← e] at this
      linarith
    · have := hp p.1 p.2 q.1 (by omega) (by omega) (by omega) (by omega) (by omega) (by omega) hpc
      rw [← e] at this
      linarith

/-! ### The rest of the run -/

/-- The rotors that reach the code for symmetric tops without stopping at a `todo!`, and the diatomic. -/
def Supported (r : Rotor) : Prop := r = .oblateSymmTop ∨ r = .prolateSymmTop ∨ r = .linear ∨ r = .diatomic

/-- C99: once the modes are aligned, a run completes exactly when no degeneracy class has more members than there
are vibrations. -/
theorem c99_run_iff {ι : Type} (s : SpectroIn ℝ) (o : Oracles ℝ ι) (fc2 : Mat ℝ) (f3x : T3 ℝ) (f4x : T4 ℝ)
    (hr : Supported s.rotor) (hv : 0 < s.nvib) (hn : s.nvib ≤ s.n3n) (hi2 : s.i2vib = s.nvib * (s.nvib + 1) / 2)
    (he : ∀ m, (o.eigen m).1.length = s.n3n) (he2 : ∀ p v q, (o.eigen2 p v q).1.length = 2) :
    (run s o (.quartic fc2 f3x f4x)).isSome ↔ ∃ m, runModes s o fc2 = some m ∧
      (Mode.count (degModes s.rotor s.nvib (vecOf m.freq))).1 ≤ s.nvib ∧
      (Mode.count (degModes s.rotor s.nvib (vecOf m.freq))).2.1 ≤ s.nvib ∧
      (Mode.count (degModes s.rotor s.nvib (vecOf m.freq))).2.2 ≤ s.nvib := by
  have hne : s.rotor ≠ .sphericalTop ∧ s.rotor ≠ .none := by
    rcases hr with h | h | h | h <;> rw [h] <;> simp
  constructor
  · intro h
    obtain ⟨q, hq⟩ := Option.isSome_iff_exists.1 h
    obtain ⟨m, F4, hm, -, hfin⟩ := run_quartic hq
    obtain ⟨r, x, hf, zc, vlxm, vlx, hrs, -⟩ := finish_parts hfin
    rw [hi2] at hrs
    exact ⟨m, hm, ((c21_restst_iff _ _ _ _ _).1 (by rw [hrs]; rfl)).2.2⟩
  · rintro ⟨m, hm, hcnt⟩
    have hlen : m.freq.length = s.n3n := by
      unfold runModes at hm
      simp only [Option.bind_eq_bind, Option.bind_eq_some_iff] at hm
      obtain ⟨p, -, irr, -, hm⟩ := hm
      obtain rfl := Option.some.inj hm
      simp only [toWavenumbers, List.length_map]
      rw [(c11_pairs_rearranged _ _ _).1, he]
    obtain ⟨F4, hF4⟩ := Option.isSome_iff_exists.1 (force4_runs s.n3n s.nvib (rot4th s.n3n s.natom s.axes f4x) m.lx
      (vecOf m.freq) hv)
    unfold run
    simp only [Derivative.fc2, hm, Option.bind_eq_bind, Option.bind_some, hF4]
    generalize f3Of (force3 s.n3n (rot3rd s.n3n s.natom s.axes f3x) m.lx s.nvib (vecOf m.freq)) = f3
    generalize f4Of F4 = f4
    obtain ⟨q, hq⟩ := quartic_runs s.rotor hr s.nvib s.rotcon s.primat (vecOf m.freq)
      (wilsonA s.nvib s.natom s.pos m.lxm s.weights)
    obtain ⟨r, hrs⟩ := Option.isSome_iff_exists.1 ((c21_restst_iff s.rotor s.nvib (makeZmat s.nvib s.natom m.lxm) f3
      (vecOf m.freq)).2 ⟨hne.1, hne.2, hcnt⟩)
    rw [← hi2] at hrs
    obtain ⟨t, ht, hmd, hst, hfu, hov, hco, hf1, hf2⟩ := restst_parts hrs
    have hrep : ∀ md ∈ r.modes, ∀ i ∈ md.members, i < s.nvib := fun md h1 i h2 =>
      (c17_covers s.rotor s.nvib (vecOf m.freq) i).1 ⟨md, hmd ▸ h1, h2⟩
    have hrep' : ∀ i, isRep r.modes i → i < s.nvib := by
      rintro i (h | ⟨j, h⟩)
      · exact hrep _ h i (by simp [Mode.members])
      · exact hrep _ h i (by simp [Mode.members])
    have hm1 : ∀ i ∈ (Mode.partition r.modes).1, i < s.nvib := fun i hi => hrep' i (.inl ((part1_mem ..).1 hi))
    have hm2 : ∀ p ∈ (Mode.partition r.modes).2.1, p.1 < s.nvib := fun p hp =>
      hrep' p.1 (.inr ⟨p.2, (part2_mem ..).1 hp⟩)
    have hf : (∀ f ∈ r.fermi1, f.j < s.nvib) ∧ ∀ f ∈ r.fermi2, f.k < s.nvib := by
      by_cases hdi : s.rotor = .diatomic
      · rw [hdi] at hf1 hf2
        have e1 : r.fermi1 = [] := (Option.some.inj hf1).symm
        have e2 : r.fermi2 = [] := (Option.some.inj hf2).symm
        rw [e1, e2]
        simp
      · have hax : axialTop s.rotor := by
          rcases hr with h | h | h | h
          · exact .inl h
          · exact .inr (.inl h)
          · exact .inr (.inr h)
          · exact absurd h hdi
        refine ⟨fun f hf => ?_, fun f hf => ?_⟩
        · rcases ((c26_fermi1_iff s.rotor hax r.modes _ _ _ hf1 f.i f.j).1 hf).2.2 with ⟨-, h⟩ | ⟨-, h⟩
          · exact hrep' _ (.inl h)
          · exact hrep' _ h
        · exact hrep' _ (c26_fermi2_sound s.rotor hax r.modes _ _ _ hf2 f hf).2.2.1
    have hpart : s.rotor.isSymTop = false → (Mode.partition r.modes).2.1 = [] := by
      intro h
      rw [hmd, partition_asym _ h]
    obtain ⟨x, hx, hxg⟩ : ∃ x, finishX s (vecOf m.freq) f3 f4 (makeZmat s.nvib s.natom m.lxm)
        (wilsonA s.nvib s.natom s.pos m.lxm s.weights) r = some x ∧ (s.rotor.isSymTop = true → x.2.1.isSome) := by
      unfold finishX
      cases hsym : s.rotor.isSymTop with
      | false => exact ⟨_, rfl, by simp⟩
      | true =>
        have hnd : s.rotor ≠ .diatomic := by
          intro e
          rw [e] at hsym
          exact absurd hsym (by decide)
        unfold xcals nondegNondeg
        simp only [if_neg hnd, Option.map_some, if_true]
        exact ⟨_, rfl, fun _ => rfl⟩
    obtain ⟨hfu', hhf⟩ : ∃ hf, finishFunds s m.freq x.1 x.2.1 r = some hf := by
      unfold finishFunds
      cases hsym : s.rotor.isSymTop with
      | false =>
        simp only [Bool.false_eq_true, if_false, firstFreqs, hlen, not_lt.2 hn, Option.map_some]
        exact ⟨_, rfl⟩
      | true =>
        obtain ⟨g, hg⟩ := Option.isSome_iff_exists.1 (hxg hsym)
        rw [if_pos rfl, hg]
        exact Option.isSome_iff_exists.1 (makeSymFunds_runs _ _ _ _)
    obtain ⟨zc, hzc⟩ := Option.isSome_iff_exists.1 (correctedFunds_runs o.eigen2 (vecOf m.freq) x.1 x.2.1 r f3 x.2.2
      (List.replicate r.states.length (Arith.lit 0.0)) s.nvib s.i2vib t ht hst (by simp)
      (enrgy_runs_deg o.eigen2 he2 (vecOf m.freq) x.1 x.2.1 r f3 x.2.2 _ s.nvib s.i2vib t ht hi2 hst hfu hov hco hm1 hm2
        hf.1 hf.2 (by simp) (by
          cases hsym : s.rotor.isSymTop with
          | false => exact .inl (hpart hsym)
          | true => exact .inr (hxg hsym))))
    obtain ⟨R, hR, -⟩ := c83_averaged s.rotor hne.1 r.modes s.nvib s.i2vib t ht s.rotcon s.primat (vecOf m.freq)
      (wilsonA s.nvib s.natom s.pos m.lxm s.weights) (makeZmat s.nvib s.natom m.lxm) f3 r.coriolis
    obtain ⟨L, hL⟩ := Option.isSome_iff_exists.1 (rots_runs s.rotor s.rotcon R r.states q)
    have hrots : finishRots s (vecOf m.freq) f3 (makeZmat s.nvib s.natom m.lxm)
        (wilsonA s.nvib s.natom s.pos m.lxm s.weights) r q = some L := by
      unfold finishRots
      have : (s.rotor.isSymTop || s.rotor == .diatomic) = true := by
        rcases hr with h | h | h | h <;> rw [h] <;> rfl
      rw [if_pos this, hst, hR, Option.bind_eq_bind, Option.bind_some, if_neg hne.1, ← hst, hL]
    unfold finish
    simp only [hq, hrs, hx, hhf, hzc, hrots, Option.bind_eq_bind, Option.bind_some, toVec_square s.n3n (by omega)]
    rfl

/-- The wavenumbers and eigenvectors the alignment starts from, /repo/spectro/src/run.rs:177-191. -/
noncomputable def rawModes {ι : Type} (s : SpectroIn ℝ) (o : Oracles ℝ ι) (fc2 : Mat ℝ) : List ℝ × Mat ℝ :=
  let fxm := formSec s.n3n (fun i j => FACT2 * rot2nd s.natom s.axes fc2 i j) fun i =>
    Arith.lit 1.0 / Arith.sqrt (s.weights i)
  let d := symmEigenDecomp (o.eigen fxm).1 (o.eigen fxm).2 true
  (toWavenumbers d.1, d.2)

theorem runModes_iff {ι : Type} (s : SpectroIn ℝ) (o : Oracles ℝ ι) (fc2 : Mat ℝ) (hs : s.rotor.isSymTop = true)
    (hf : 4 ≤ o.fuel) : ∃ lx, ((runModes s o fc2).isSome ↔
      (bdegnl ⟨s.linear, s.nvib, s.n3n, s.natom, s.iatom, s.axisOrder, s.buddy⟩ (vecOf (rawModes s o fc2).1) s.weights
        (rawModes s o fc2).2 lx).isSome) ∧
      ∀ m, runModes s o fc2 = some m → m.freq = (rawModes s o fc2).1 := by
  refine ⟨makeLx s.n3n (fun i => Arith.lit 1.0 / Arith.sqrt (s.weights i)) (rawModes s o fc2).2, ?_, ?_⟩
  · unfold runModes runAlign rawModes
    simp only [hs, if_true, Option.bind_eq_bind]
    cases bdegnl ⟨s.linear, s.nvib, s.n3n, s.natom, s.iatom, s.axisOrder, s.buddy⟩ _ s.weights _ _ with
    | none => simp
    | some p =>
      obtain ⟨l, hl⟩ := Option.isSome_iff_exists.1 (c56_four_rounds o.fuel hf o.irrepOf o.irrepA s.n3n p.1 s.nvib)
      simp only [Option.bind_some, hl]
      simp
  · intro m hm
    unfold runModes at hm
    simp only [Option.bind_eq_bind, Option.bind_eq_some_iff] at hm
    obtain ⟨p, -, irr, -, hm⟩ := hm
    obtain rfl := Option.some.inj hm
    rfl

/-- C99, the part that holds: a run of a symmetric top or a linear molecule whose near-degenerate modes come in
separate pairs completes exactly when in each pair (closer than 1 for a linear molecule, than 0.05 otherwise) the
reference atom moves and, unless the molecule is linear, an equivalent atom is known. Missing: the pairs in which the
reference atom is at rest make the run panic (`c99_violated`), and so can larger clusters of modes
(`c99_cluster_violated`). -/
theorem c99_completes_partial {ι : Type} (s : SpectroIn ℝ) (o : Oracles ℝ ι) (fc2 : Mat ℝ) (f3x : T3 ℝ) (f4x : T4 ℝ)
    (hr : axialTop s.rotor) (hv : 0 < s.nvib) (hn : s.nvib ≤ s.n3n) (hi2 : s.i2vib = s.nvib * (s.nvib + 1) / 2)
    (he : ∀ m, (o.eigen m).1.length = s.n3n) (he2 : ∀ p v q, (o.eigen2 p v q).1.length = 2) (hf : 4 ≤ o.fuel)
    (hp : Paired s.nvib (if s.linear then 1 else 0.1) (vecOf (rawModes s o fc2).1)) :
    (run s o (.quartic fc2 f3x f4x)).isSome ↔ ∀ i j, i < j → j < s.nvib →
      |vecOf (rawModes s o fc2).1 i - vecOf (rawModes s o fc2).1 j| < (if s.linear then 1 else 0.05) →
      Alignable s.linear (3 * s.iatom) i j (rawModes s o fc2).2 ∧ (s.linear = true ∨ s.buddy.isSome) := by
  have hr' : Supported s.rotor := by
    rcases hr with h | h | h
    · exact .inl h
    · exact .inr (.inl h)
    · exact .inr (.inr (.inl h))
  have hsym : s.rotor.isSymTop = true := by rcases hr with h | h | h <;> rw [h] <;> rfl
  have hne : s.rotor ≠ .sphericalTop ∧ s.rotor ≠ .none := by
    rcases hr with h | h | h <;> rw [h] <;> simp
  obtain ⟨lx, h1, h2⟩ := runModes_iff s o fc2 hsym hf
  have hp1 : Paired s.nvib (if s.linear then 1 else 0.05) (vecOf (rawModes s o fc2).1) := by
    intro i j k hi hj hk a b c d
    cases hl : s.linear with
    | true =>
      simp only [hl, if_true] at hp d ⊢
      exact hp i j k hi hj hk a b c d
    | false =>
      simp only [hl, Bool.false_eq_true, if_false] at hp d ⊢
      have := hp i j k hi hj hk a b c (by linarith)
      linarith
  have hp2 : Paired s.nvib 0.1 (vecOf (rawModes s o fc2).1) := by
    intro i j k hi hj hk a b c d
    cases hl : s.linear with
    | true =>
      simp only [hl, if_true] at hp d ⊢
      have := hp i j k hi hj hk a b c (by linarith)
      linarith
    | false =>
      simp only [hl, Bool.false_eq_true, if_false] at hp d ⊢
      exact hp i j k hi hj hk a b c d
  rw [← c99_align_iff ⟨s.linear, s.nvib, s.n3n, s.natom, s.iatom, s.axisOrder, s.buddy⟩ (vecOf (rawModes s o fc2).1)
    s.weights (rawModes s o fc2).2 lx hv hp1, ← h1, c99_run_iff s o fc2 f3x f4x hr' hv hn hi2 he he2]
  constructor
  · rintro ⟨m, hm, -⟩
    rw [hm]
    rfl
  · intro h
    obtain ⟨m, hm⟩ := Option.isSome_iff_exists.1 h
    refine ⟨m, hm, ?_⟩
    rw [h2 m hm]
    generalize vecOf (rawModes s o fc2).1 = f at hp2
    refine ((c21_restst_iff s.rotor s.nvib (fun _ _ _ => (0 : ℝ)) (fun _ _ _ => 0) f).1
      (c21_symmetric_partial s.rotor hne.1 hne.2 s.nvib _ _ f ?_ ?_)).2.2
    · intro i j k hi hj hk _ _ _ a b
      by_cases hij : i = j
      · rw [hij]; exact b
      by_cases hjk : j = k
      · rw [← hjk]; exact a
      by_cases hik : i = k
      · rw [hik, sub_self, abs_zero]; norm_num
      · have := hp2 i j k hi hj hk hij hik hjk a
        linarith
    · intro S hS hc
      by_contra hcard
      obtain ⟨a, b, c, ha, hb, hcm, hab, hac, hbc⟩ := Finset.two_lt_card_iff.1 (show 2 < S.card by omega)
      have := hp2 a b c (hS a ha).1 (hS b hb).1 (hS c hcm).1 hab hac hbc (hc a ha b hb)
      have := hc b hb c hcm
      linarith

/-- C99: a run of a diatomic molecule completes. -/
theorem c99_diatomic {ι : Type} (s : SpectroIn ℝ) (o : Oracles ℝ ι) (fc2 : Mat ℝ) (f3x : T3 ℝ) (f4x : T4 ℝ)
    (hr : s.rotor = .diatomic) (hv : 0 < s.nvib) (hn : s.nvib ≤ s.n3n) (hi2 : s.i2vib = s.nvib * (s.nvib + 1) / 2)
    (he : ∀ m, (o.eigen m).1.length = s.n3n) (he2 : ∀ p v q, (o.eigen2 p v q).1.length = 2) (hf : 4 ≤ o.fuel) :
    (run s o (.quartic fc2 f3x f4x)).isSome := by
  rw [c99_run_iff s o fc2 f3x f4x (.inr (.inr (.inr hr))) hv hn hi2 he he2]
  have hm : ∃ m, runModes s o fc2 = some m := by
    unfold runModes
    simp only [runAlign, hr, Rotor.isSymTop, Bool.false_eq_true, if_false, Option.bind_eq_bind, Option.bind_some]
    obtain ⟨l, hl⟩ := Option.isSome_iff_exists.1 (c56_four_rounds o.fuel hf o.irrepOf o.irrepA s.n3n
      (symmEigenDecomp _ _ true).2 s.nvib)
    rw [hl]
    exact ⟨_, rfl⟩
  obtain ⟨m, hm⟩ := hm
  refine ⟨m, hm, ?_⟩
  rw [c18_count, partition_asym _ (by rw [hr]; rfl)]
  simp

/-! ### Molecules with a diagonal Hessian -/

/-- An eigensolver for diagonal matrices that lists the coordinates in the order `p`. -/
noncomputable def diagOracles (n : Nat) (p : Nat → Nat) : Oracles ℝ Nat :=
  { eigen := fun m => ((List.range n).map fun i => m (p i) (p i), fun r c => if r = p c then 1 else 0)
    eigen2 := fun p _ q => ([p, q], fun i j => if i = j then 1 else 0)
    fuel := 4, irrepOf := fun _ _ => some 0, irrepA := 0 }

/-- A Hessian in which, for unit masses, coordinate `i` has the wavenumber `W i`. -/
noncomputable def diagHessian (W : Nat → ℝ) : Mat ℝ := fun i j =>
  if i = j then W i ^ 2 / (waveUnit ^ 2 * (FACT2 : ℝ)) else 0

theorem fact2_real_pos : 0 < (FACT2 : ℝ) := by
  unfold FACT2; simp only [lit_real]; positivity

theorem rot2nd_idAxes (natom : Nat) (f : Mat ℝ) (x y : Nat) (hx : x < 3 * natom) (hy : y < 3 * natom) :
    rot2nd natom idAxes f x y = f x y := by
  have hx' : x = 3 * (x / 3) + x % 3 := (Nat.div_add_mod x 3).symm
  have hy' : y = 3 * (y / 3) + y % 3 := (Nat.div_add_mod y 3).symm
  have h1 : x % 3 < 3 := Nat.mod_lt _ (by omega)
  have h2 : y % 3 < 3 := Nat.mod_lt _ (by omega)
  rw [hx', hy']
  rw [rot2nd_apply _ _ _ _ _ _ _ (by omega) (by omega) h1 h2]
  generalize x % 3 = p at h1
  generalize y % 3 = q at h2
  interval_cases p <;> interval_cases q <;>
    simp [sandwich, idAxes, matMul, transpose, sumTo_real, Finset.sum_range_succ]

/-- The secular matrix of `diagHessian`. -/
theorem diag_secular (natom : Nat) (W : Nat → ℝ) (i j : Nat) (hi : i < 3 * natom) (hj : j < 3 * natom) :
    formSec (3 * natom) (fun i j => FACT2 * rot2nd natom idAxes (diagHessian W) i j)
      (fun _ => (Arith.lit 1.0 : ℝ) / Arith.sqrt 1) i j = if i = j then (W i / waveUnit) ^ 2 else 0 := by
  have hw := waveUnit_pos
  have hf := fact2_real_pos
  have up : ∀ i j, i ≤ j → j < 3 * natom → formSec (3 * natom) (fun i j => FACT2 * rot2nd natom idAxes (diagHessian W) i j)
      (fun _ => (Arith.lit 1.0 : ℝ) / Arith.sqrt 1) i j = if i = j then (W i / waveUnit) ^ 2 else 0 := by
    intro i j hij hj
    rw [formSec_upper _ _ _ _ _ hij hj, rot2nd_idAxes _ _ _ _ (by omega) hj, lit_real, sqrt_real, diagHessian]
    norm_num
    split
    · field_simp
    · simp
  rcases le_total i j with h | h
  · exact up i j h hj
  · rw [formSec_lower _ _ _ _ _ h, up j i h hi]
    by_cases e : i = j
    · subst e; simp
    · rw [if_neg e, if_neg (Ne.symm e)]

/-- The modes the alignment starts from, for a molecule with unit masses, its axes in place and a diagonal Hessian
whose coordinates are listed by decreasing wavenumber. -/
theorem diag_raw (s : SpectroIn ℝ) (W : Nat → ℝ) (p : Nat → Nat) (hax : s.axes = idAxes) (hm : s.weights = fun _ => 1)
    (hn : s.n3n = 3 * s.natom) (hp : ∀ i < s.n3n, p i < s.n3n) (hW : ∀ i, 0 ≤ W i)
    (hd : ∀ i j, i < j → j < s.n3n → W (p j) ≤ W (p i)) :
    (rawModes s (diagOracles s.n3n p) (diagHessian W)).1 = (List.range s.n3n).map (fun i => W (p i)) ∧
    ∀ r, ∀ c < s.n3n, (rawModes s (diagOracles s.n3n p) (diagHessian W)).2 r c = if r = p c then 1 else 0 := by
  have hw := waveUnit_pos
  have hvals : ((List.range s.n3n).map fun i => formSec s.n3n (fun i j => FACT2 * rot2nd s.natom s.axes (diagHessian W) i j)
      (fun i => (Arith.lit 1.0 : ℝ) / Arith.sqrt (s.weights i)) (p i) (p i)) =
      (List.range s.n3n).map fun i => (W (p i) / waveUnit) ^ 2 := by
    refine List.map_congr_left fun i hi => ?_
    have := hp i (List.mem_range.1 hi)
    rw [hax, hm, hn, diag_secular _ _ _ _ (by omega) (by omega), if_pos rfl]
  have hsort : (((List.range s.n3n).map fun i => (W (p i) / waveUnit) ^ 2).zipIdx.mergeSort (eigenLe true)) =
      ((List.range s.n3n).map fun i => (W (p i) / waveUnit) ^ 2).zipIdx := by
    refine List.mergeSort_of_pairwise ?_
    rw [List.pairwise_iff_getElem]
    intro i j hi hj hij
    simp only [List.length_zipIdx, List.length_map, List.length_range] at hi hj
    simp only [List.getElem_zipIdx, List.getElem_map, List.getElem_range, eigenLe, if_true]
    rw [Bool.not_eq_true', ← Bool.not_eq_true, lt_real, not_lt]
    have := hd i j hij hj
    have := hW (p j)
    gcongr
  unfold rawModes
  simp only [diagOracles, hvals, symmEigenDecomp, hsort]
  constructor
  · rw [List.zipIdx_map_fst, toWavenumbers, List.map_map]
    refine List.map_congr_left fun i _ => ?_
    have h0 := hW (p i)
    simp only [Function.comp]
    rw [toWavenumber_real, if_neg (not_lt.2 (sq_nonneg _)), Real.sqrt_sq (by positivity)]
    field_simp
  · intro r c hc
    rw [List.zipIdx_map_snd]
    simp [List.getD_eq_getElem?_getD, List.getElem?_range', hc]

/-- Wavenumbers of which the first two agree and the others are well apart. -/
noncomputable def pairLevels : Nat → ℝ := fun i => if i ≤ 1 then 900 else 900 - 50 * i

theorem pairLevels_gap {i j : Nat} (h : i < j) (hj : 2 ≤ j) : 50 ≤ pairLevels i - pairLevels j := by
  have e : pairLevels j = 900 - 50 * j := if_neg (by omega)
  rw [e]
  unfold pairLevels
  have h2 : (2 : ℝ) ≤ j := by exact_mod_cast hj
  split
  · linarith
  · have : (i : ℝ) + 1 ≤ j := by exact_mod_cast h
    linarith

theorem pairLevels_paired (n : Nat) (t : ℝ) (ht : t ≤ 50) : Paired n t pairLevels := by
  have key : ∀ i j, i ≠ j → |pairLevels i - pairLevels j| < t → i ≤ 1 ∧ j ≤ 1 := by
    intro i j hij h
    by_contra hc
    rcases Nat.lt_or_gt_of_ne hij with hl | hl
    · have := pairLevels_gap hl (by omega)
      have := le_abs_self (pairLevels i - pairLevels j)
      linarith
    · have := pairLevels_gap hl (by omega)
      have := neg_le_abs (pairLevels i - pairLevels j)
      linarith
  intro i j k _ _ _ hij hik hjk h
  by_contra hc
  have h1 := key i j hij h
  have h2 := key j k hjk (not_le.1 hc)
  omega

/-- Exchanges the coordinates x, y of the first atom with those of the second. -/
def swapAtoms : Nat → Nat := fun i => if i ≤ 1 then i + 3 else if i = 3 ∨ i = 4 then i - 3 else i

theorem swapAtoms_invol (i : Nat) : swapAtoms (swapAtoms i) = i := by
  unfold swapAtoms; split_ifs <;> omega

/-- A linear molecule of three atoms. -/
noncomputable def exampleLine : SpectroIn ℝ :=
  { header := [], natom := 3, n3n := 9, nvib := 4, i2vib := 10, rotor := .linear, linear := true
    axes := idAxes, primat := fun i => i + 1, rotcon := fun i => 3 - i, weights := fun _ => 1
    pos := fun a x => if x = 2 then a else 0, iatom := 0, axisOrder := 0, buddy := none }

theorem exampleLine_raw (p : Nat → Nat) (hp : ∀ i < 9, p i < 9) (hpp : ∀ i, p (p i) = i) :
    (∀ i < 9, vecOf (rawModes exampleLine (diagOracles 9 p) (diagHessian fun i => if i < 9 then pairLevels (p i) else 0)).1 i =
      pairLevels i) ∧
    ∀ r, ∀ c < 9, (rawModes exampleLine (diagOracles 9 p) (diagHessian fun i => if i < 9 then pairLevels (p i) else 0)).2 r c =
      if r = p c then 1 else 0 := by
  have h := diag_raw exampleLine (fun i => if i < 9 then pairLevels (p i) else 0) p rfl rfl rfl hp (by
      intro i
      split
      · have := hp i (by assumption)
        unfold pairLevels
        split
        · norm_num
        · have : (p i : ℝ) ≤ 9 := by exact_mod_cast (by omega)
          linarith
      · exact le_rfl) (by
      intro i j hij hj
      have hj : j < 9 := hj
      rw [if_pos (hp j hj), if_pos (hp i (by omega)), hpp, hpp]
      by_cases h2 : 2 ≤ j
      · linarith [pairLevels_gap hij h2]
      · have e1 : j = 1 := by omega
        have e0 : i = 0 := by omega
        subst e1 e0
        norm_num [pairLevels])
  refine ⟨fun i hi => ?_, h.2⟩
  have h1 : (rawModes exampleLine (diagOracles 9 p) (diagHessian fun i => if i < 9 then pairLevels (p i) else 0)).1 = _ := h.1
  rw [h1, vecOf, List.getD_eq_getElem?_getD, List.getElem?_map, List.getElem?_range (show i < exampleLine.n3n from hi)]
  simp only [Option.map_some, Option.getD_some, if_pos (hp i hi), hpp]

theorem exampleLine_paired (p : Nat → Nat) (hp : ∀ i < 9, p i < 9) (hpp : ∀ i, p (p i) = i) :
    Paired exampleLine.nvib (if exampleLine.linear then 1 else 0.1)
      (vecOf (rawModes exampleLine (diagOracles 9 p) (diagHessian fun i => if i < 9 then pairLevels (p i) else 0)).1) := by
  have e := (exampleLine_raw p hp hpp).1
  intro i j k hi hj hk
  have h4 : exampleLine.nvib = 4 := rfl
  rw [e i (by omega), e j (by omega), e k (by omega)]
  exact pairLevels_paired 4 _ (by norm_num [exampleLine]) i j k (by omega) (by omega) (by omega)

theorem diagOracles_length (n : Nat) (p : Nat → Nat) (m : Mat ℝ) : ((diagOracles n p).eigen m).1.length = n := by
  simp [diagOracles]

/-- The hypotheses of `c99_completes_partial` are met: the first atom of a linear molecule takes part in the degenerate
vibration, and the run completes. -/
example : ∃ fc2, (run exampleLine (diagOracles 9 id) (.quartic fc2 (fun _ _ _ => 1) fun _ _ _ _ => 1)).isSome := by
  have hp : ∀ i < 9, id i < 9 := fun i hi => hi
  obtain ⟨e1, e2⟩ := exampleLine_raw id hp fun _ => rfl
  refine ⟨_, (c99_completes_partial exampleLine (diagOracles 9 id) _ _ _ (.inr (.inr rfl)) (by decide) (by decide) rfl
    (diagOracles_length 9 id) (fun _ _ _ => rfl) le_rfl (exampleLine_paired id hp fun _ => rfl)).2 ?_⟩
  intro i j hij hj hc
  have hj : j < 4 := hj
  rw [e1 i (by omega), e1 j (by omega)] at hc
  have h2 : j < 2 := by
    by_contra h2
    have := pairLevels_gap hij (by omega)
    have := le_abs_self (pairLevels i - pairLevels j)
    norm_num [exampleLine] at hc
    linarith
  obtain rfl : j = 1 := by omega
  obtain rfl : i = 0 := by omega
  refine ⟨.inl ⟨0, by simp [exampleLine], 0, by simp, ?_⟩, .inl rfl⟩
  rw [e2 0 0 (by omega)]
  norm_num

/-- C99 is violated: a linear molecule with a degenerate vibration in which the first atom is at rest. The alignment
stops at a `todo!`, although the eigensolver answers correctly and the modes form separate pairs. -/
theorem c99_violated : ∃ fc2 : Mat ℝ, Symm2 9 fc2 ∧
    (∀ m : Mat ℝ, (∀ i j, i < 9 → j < 9 → i ≠ j → m i j = 0) → IsEigen 9 m ((diagOracles 9 swapAtoms).eigen m)) ∧
    (∀ i j, i < 9 → j < 9 → i ≠ j → fc2 i j = 0) ∧
    Paired exampleLine.nvib 1 (vecOf (rawModes exampleLine (diagOracles 9 swapAtoms) fc2).1) ∧
    ∀ f3x f4x, run exampleLine (diagOracles 9 swapAtoms) (.quartic fc2 f3x f4x) = none := by
  have hp : ∀ i < 9, swapAtoms i < 9 := by decide
  obtain ⟨e1, e2⟩ := exampleLine_raw swapAtoms hp swapAtoms_invol
  have hpd := exampleLine_paired swapAtoms hp swapAtoms_invol
  refine ⟨_, ?_, ?_, ?_, hpd, ?_⟩
  · intro a b _ _
    unfold diagHessian
    by_cases h : a = b
    · rw [h]
    · rw [if_neg h, if_neg (Ne.symm h)]
  · intro m hm
    refine ⟨diagOracles_length _ _ _, ?_, ?_⟩
    · intro i j hi hj
      simp only [diagOracles]
      by_cases h : i = j
      · subst h
        simp [hp i hi]
      · have : swapAtoms i ≠ swapAtoms j := fun e => h (by rw [← swapAtoms_invol i, e, swapAtoms_invol])
        simp [h, this.symm, this]
    · intro i l hl a ha
      have hi : i < 9 := by
        have := (List.getElem?_eq_some_iff.1 hl).1
        rwa [diagOracles_length] at this
      simp only [diagOracles, List.getElem?_map, List.getElem?_range hi, Option.map_some, Option.some.injEq] at hl ⊢
      subst hl
      rw [Finset.sum_eq_single (swapAtoms i)]
      · by_cases h : a = swapAtoms i
        · simp [h]
        · simp [h, hm a _ ha (hp i hi) h]
      · intro b _ hb
        simp [hb]
      · intro h
        exact absurd (Finset.mem_range.2 (hp i hi)) h
  · intro i j _ _ hij
    simp [diagHessian, hij]
  · intro f3x f4x
    rw [← Option.not_isSome_iff_eq_none, c99_completes_partial exampleLine (diagOracles 9 swapAtoms) _ f3x f4x
      (.inr (.inr rfl)) (by decide) (by decide) rfl (diagOracles_length 9 _) (fun _ _ _ => rfl) le_rfl hpd]
    intro h
    have h4 : exampleLine.nvib = 4 := rfl
    obtain ⟨h, -⟩ := h 0 1 (by omega) (by omega) (by
      rw [e1 0 (by omega), e1 1 (by omega)]
      norm_num [pairLevels, exampleLine])
    have hz : ∀ r ∈ [3 * exampleLine.iatom, 3 * exampleLine.iatom + 1], ∀ m ∈ [0, 1],
        (rawModes exampleLine (diagOracles 9 swapAtoms)
          (diagHessian fun i => if i < 9 then pairLevels (swapAtoms i) else 0)).2 r m = 0 := by
      intro r hr m hm
      simp only [exampleLine, List.mem_cons, List.not_mem_nil, or_false] at hr hm
      rcases hr with rfl | rfl <;> rcases hm with rfl | rfl <;> rw [e2 _ _ (by omega)] <;> simp [swapAtoms]
    rcases h with ⟨r, hr, m, hm, h⟩ | ⟨h, -⟩
    · rw [hz r hr m hm] at h
      norm_num at h
    · simp [exampleLine] at h

/-- A symmetric top of four atoms. -/
noncomputable def exampleFour : SpectroIn ℝ :=
  { header := [], natom := 4, n3n := 12, nvib := 6, i2vib := 21, rotor := .oblateSymmTop, linear := false
    axes := idAxes, primat := fun i => i + 1, rotcon := fun i => 3 - i, weights := fun _ => 1
    pos := fun a x => a * x, iatom := 1, axisOrder := 3, buddy := some 2 }

/-- C99 is violated for larger clusters: with six equal wavenumbers a symmetric top of four atoms has twenty "triples"
and the tables of states overflow, whatever the eigenvectors. -/
theorem c99_cluster_violated : ∃ fc2 : Mat ℝ, Symm2 12 fc2 ∧
    (∀ i < 6, vecOf (rawModes exampleFour (diagOracles 12 id) fc2).1 i = 1000) ∧
    ∀ f3x f4x, run exampleFour (diagOracles 12 id) (.quartic fc2 f3x f4x) = none := by
  have h := diag_raw exampleFour (fun _ => 1000) id rfl rfl rfl (fun _ h => h) (fun _ => by norm_num) fun _ _ _ _ => le_rfl
  have hraw : ∀ i < 12, vecOf (rawModes exampleFour (diagOracles 12 id) (diagHessian fun _ => 1000)).1 i = 1000 := by
    intro i hi
    have h1 : (rawModes exampleFour (diagOracles 12 id) (diagHessian fun _ => 1000)).1 = _ := h.1
    rw [h1, vecOf, List.getD_eq_getElem?_getD, List.getElem?_map, List.getElem?_range (show i < exampleFour.n3n from hi)]
    rfl
  refine ⟨diagHessian fun _ => 1000, ?_, fun i hi => hraw i (by omega), ?_⟩
  · intro a b _ _
    unfold diagHessian
    by_cases h : a = b
    · rw [h]
    · rw [if_neg h, if_neg (Ne.symm h)]
  intro f3x f4x
  rw [← Option.not_isSome_iff_eq_none, c99_run_iff exampleFour (diagOracles 12 id) _ f3x f4x (.inl rfl) (by decide)
    (by decide) rfl (diagOracles_length 12 _) (fun _ _ _ => rfl)]
  rintro ⟨m, hm, -, -, hc⟩
  obtain ⟨-, -, hmf⟩ := runModes_iff exampleFour (diagOracles 12 id) (diagHessian fun _ => 1000) rfl le_rfl
  rw [c18_count, hmf m hm] at hc
  generalize vecOf (rawModes exampleFour (diagOracles 12 id) (diagHessian fun _ => 1000)).1 = f at hc hraw
  have hp := (c18_order (degModes exampleFour.rotor exampleFour.nvib f)).2.2
  have hl := congrArg List.length hp
  rw [List.length_map] at hl
  have ht : degTriples 6 f = incTriples 6 := by
    unfold degTriples
    rw [List.filter_eq_self]
    intro p hp
    have hb : ∀ p ∈ incTriples 6, p.1 < 12 ∧ p.2.1 < 12 ∧ p.2.2 < 12 := by decide
    obtain ⟨b1, b2, b3⟩ := hb p hp
    simp [close, DEG_TOL, lt_real, lit_real, abs_real, hraw _ b1, hraw _ b2, hraw _ b3]
    norm_num
  have hsub : (List.Sublist ((incTriples 6).map fun p => Mode.i3 p.1 p.2.1 p.2.2)
      (degModes exampleFour.rotor exampleFour.nvib f)) := by
    unfold degModes
    have e1 : exampleFour.rotor = .oblateSymmTop := rfl
    have e2 : exampleFour.nvib = 6 := rfl
    rw [e1, e2, if_pos (show Rotor.oblateSymmTop.isSymTop = true from rfl), ht, List.append_assoc]
    exact List.sublist_append_left _ _
  have h2 := (hsub.filter fun m => decide (m.degree = 3)).length_le
  rw [← hl] at h2
  have h3 : (((incTriples 6).map fun p => Mode.i3 p.1 p.2.1 p.2.2).filter
      fun m => decide (m.degree = 3)).length = 20 := by decide
  have h6 : exampleFour.nvib = 6 := rfl
  simp only at hc
  omega

/-- Two atoms: the hypotheses of `c99_diatomic` are met. -/
example : (run (ι := Nat) { exampleLine with natom := 2, n3n := 6, nvib := 1, i2vib := 1, rotor := .diatomic } (diagOracles 6 id)
    (.quartic (fun i j => if i = j then 1 / (i + 1) else 0) (fun _ _ _ => 1) fun _ _ _ _ => 1)).isSome :=
  c99_diatomic _ _ _ _ _ rfl (by decide) (by decide) rfl (diagOracles_length 6 id) (fun _ _ _ => rfl) le_rfl

end Verif
