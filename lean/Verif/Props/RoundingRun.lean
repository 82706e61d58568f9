import Verif.Props.RoundingZero

/-!
# C117, run: rounding errors of the reported zero-point energy and corrected fundamentals
-/

namespace Verif

open Finset

variable {u κ : ℝ} {rnd : ℝ → ℝ} {ι : Type}

/-- C117, run: let the run of an asymmetric top be carried out in rounded arithmetic, with the computed frequencies, force constants and
Coriolis constants `w`, `F₃`, `F₄`, `ζ`, and let it find no Fermi resonances. The reported zero-point energy differs from that of the
formula of second-order perturbation theory for these by at most `2 (n³ + n² + n + 29 + 24 κ) u` times the sum of the sizes of the terms,
`n` the number of modes, and each corrected fundamental differs from the difference of the energies by at most so much times the sum for
both states, whatever the solver of two-level problems returns. -/
theorem c117_run (hr : Rounds u rnd) (h1 : 1 ≤ κ) (s : SpectroIn (Fl rnd)) (o : Oracles (Fl rnd) ι)
    (fc2 : Mat (Fl rnd)) (f3x : T3 (Fl rnd)) (f4x : T4 (Fl rnd)) (out : Output (Fl rnd) ι) (ht : s.rotor = .asymmTop)
    (h : run s o (.quartic fc2 f3x f4x) = some out) (m : ModesOut (Fl rnd) ι) (hm : runModes s o fc2 = some m)
    (F4 : F4qcm (Fl rnd))
    (hF : force4 s.n3n (rot4th s.n3n s.natom s.axes f4x) m.lx s.nvib (vecOf m.freq) = some F4)
    (hnf : out.resonances.fermi1 = [] ∧ out.resonances.fermi2 = [])
    (hu : ((s.nvib : ℝ) ^ 3 + s.nvib ^ 2 + s.nvib + 29 + 24 * κ) * u ≤ 1 / 2)
    (hp : ∀ i < s.nvib, 0 < (vecOf m.freq i).val)
    (ap : ApartBy κ s.nvib (fun _ _ _ => False) fun i => (vecOf m.freq i).val) :
    let W : Nat → ℝ := fun i => (vecOf m.freq i).val
    let φ : Nat → Nat → Nat → ℝ := fun a b c =>
      (f3Of (force3 s.n3n (rot3rd s.n3n s.natom s.axes f3x) m.lx s.nvib (vecOf m.freq)) a b c).val
    let ψ : Nat → Nat → Nat → Nat → ℝ := fun a b c d => (f4Of F4 a b c d).val
    let ζ : Nat → Nat → Nat → ℝ := fun a b c => (makeZmat s.nvib s.natom m.lxm a b c).val
    let A : Nat → ℝ := fun a => (s.rotcon a).val
    let E : (Nat → Nat) → ℝ := fun n => e0Spec (fun _ _ _ => False) (List.range s.nvib) W φ ψ
      + ∑ i ∈ range s.nvib, W i * ((n i : ℝ) + 1 / 2)
      + ∑ k ∈ range s.nvib, ∑ l ∈ range (k + 1), xSpec (fun _ _ _ => False) s.nvib W φ ψ ζ A k l * ((n k : ℝ) + 1 / 2) * ((n l : ℝ) + 1 / 2)
    let T := levelSize s.nvib W φ ψ ζ A
    let η := 2 * (((s.nvib : ℝ) ^ 3 + s.nvib ^ 2 + s.nvib + 29 + 24 * κ) * u)
    |out.zpt.val - E fun _ => 0| ≤ η * T (fun _ => 0) ∧ out.corrs.length = s.nvib ∧ ∀ i < s.nvib, ∃ v, out.corrs[i]? = some v ∧
      |v.val - (E (fun j => if j = i then 1 else 0) - E fun _ => 0)| ≤ η * (T (fun j => if j = i then 1 else 0) + T fun _ => 0) := by
  intro W φ ψ ζ A E T η
  obtain ⟨m', F4', hm', hF', hfin⟩ := run_quartic h
  obtain rfl : m' = m := Option.some.inj (hm'.symm.trans hm)
  obtain rfl : F4' = F4 := Option.some.inj (hF'.symm.trans hF)
  obtain ⟨r, x, hf, zc, v, v', e1, e2, e3, e4, -, -, f1, f2, f3, f4, f5, -, -, -, -, f10⟩ := finish_parts hfin
  obtain ⟨t, hnew, hmd, hst, -, -, -, -, -⟩ := restst_parts e1
  have hsym : s.rotor.isSymTop = false := by rw [ht]; rfl
  rw [finishX, hsym] at e2
  obtain rfl := Option.some.inj (show some _ = some x from e2)
  subst f10
  rw [f3, f4]
  obtain ⟨g1, g2⟩ := c107_growth hr.1 h1 (s.nvib ^ 3 + s.nvib ^ 2 + s.nvib + 29) 3 (by norm_num) (by push_cast; linarith)
  have c : RoundCtx u κ rnd := ⟨hr, h1, g1⟩
  have g2' : growth u κ (s.nvib ^ 3 + s.nvib ^ 2 + s.nvib + 29) 3 - 1 ≤ η := g2.trans (le_of_eq (by push_cast; ring))
  have hmodes : out.resonances.modes = (List.range s.nvib).map Mode.i1 := by rw [hmd, ht]; rfl
  have hnd : nonDeg out.resonances.modes = List.range s.nvib := by rw [hmodes]; simp [nonDeg, List.filterMap_map]
  have hdp : degPairs out.resonances.modes = [] := by rw [hmodes]; simp [degPairs, List.filterMap_map]
  have hp1 : (Mode.partition out.resonances.modes).1 = List.range s.nvib := by rw [part_nonDeg, hnd]
  have hp2 : (Mode.partition out.resonances.modes).2.1 = [] := by rw [part_degPairs, hdp]
  have hp3 : (Mode.partition out.resonances.modes).2.2 = [] := by rw [hmodes, partition_eq]; simp [List.filterMap_map]
  -- the states
  have hord := c19_order s.nvib s.i2vib out.resonances.modes t hnew _ _ _ (c18_count out.resonances.modes)
  rw [hp1, hp2, hp3] at hord
  simp only [List.length_range, List.length_nil, List.range_zero, List.map_nil, List.append_nil] at hord
  have occAt : ∀ (p : Nat) o, (t.states.map State.occ)[p]? = some o → ∃ s, t.states[p]? = some s ∧ s.occ = o := by
    intro p o h
    rw [List.getElem?_map, Option.map_eq_some_iff] at h
    exact h
  obtain ⟨s0, hs0, hs0o⟩ : ∃ s, t.states[0]? = some s ∧ s.occ = noQuanta := occAt 0 _ (by rw [hord]; rfl)
  have hfundst : ∀ k < s.nvib, ∃ s, t.states[k + 1]? = some s ∧ s.occ = fundOcc (1, k) := fun k hk => by
    refine occAt _ _ ?_
    rw [hord, List.singleton_append, List.getElem?_cons_succ, List.append_assoc, List.append_assoc,
      List.getElem?_append_left (by simpa using hk), List.getElem?_map, List.getElem?_range hk]
    rfl
  -- the energies
  unfold correctedFunds enrgy at e4
  simp only [Option.bind_eq_bind, Option.bind_eq_some_iff] at e4
  obtain ⟨eng', ⟨eng, he, hmix⟩, zpt, hz, corrs, hc, hzc⟩ := e4
  obtain rfl := Option.some.inj hzc
  dsimp only [Bool.false_eq_true, if_false] at he hmix ⊢
  rw [hnf.1, hnf.2, mixCalls_none] at hmix
  obtain rfl : eng = eng' := Option.some.inj hmix
  rw [hnf.1, hnf.2, part1_eq _ _ _ _ _ _ _ _ (by simp), hp1, hp2, mapM_option_some, hst] at he
  have at_ : ∀ (k : Nat) (st : State), t.states[k]? = some st → ∀ r, eng[k]? = some r → ∀ n : Nat → Nat, (∀ i, (st.occ (1, i)).1 = n i) →
      Acc u κ (s.nvib ^ 3 + s.nvib ^ 2 + s.nvib + 28) 3 (E n) r (T n) := by
    intro k st hk r hr' n hn
    have hs := congrArg (·[k]?) he
    simp only [List.getElem?_map, hk, hr', Option.map_some, Option.some.injEq] at hs
    have := acc_state hr h1 g1 s.nvib _ _ _ _ _ _ hnd hp ap st r hs
    simp only [hn] at this
    exact this
  have a0 := at_ 0 s0 hs0 zpt hz (fun _ => 0) (fun i => by rw [hs0o]; rfl)
  rw [c18_count, hp1, hp2, hp3, mapM_option_some] at hc
  simp only [List.length_range, List.length_nil, Nat.add_zero] at hc
  have clen : corrs.length = s.nvib := by
    have := congrArg List.length hc
    simpa using this.symm
  refine ⟨?_, clen, fun i hi => ?_⟩
  · have a0' := acc_mono c a0 (show _ ≤ s.nvib ^ 3 + s.nvib ^ 2 + s.nvib + 29 by omega) le_rfl le_rfl
    exact a0'.1.trans (mul_le_mul_of_nonneg_right g2' ((abs_nonneg _).trans a0.2))
  · obtain ⟨st, hst1, hst2⟩ := hfundst i hi
    have hs := congrArg (·[i]?) hc
    simp only [List.getElem?_map, List.getElem?_range' hi, Option.map_some] at hs
    have hi' : i < corrs.length := by omega
    rw [List.getElem?_eq_getElem hi', Option.map_some, Option.some.injEq, one_mul, add_comm 1 i] at hs
    obtain ⟨e, hev, hes⟩ := Option.bind_eq_some_iff.1 hs
    refine ⟨corrs[i], List.getElem?_eq_getElem hi', ?_⟩
    rw [← Option.some.inj hes]
    have a1 := at_ (i + 1) st hst1 e hev (fun j => if j = i then 1 else 0) (fun j => by
      rw [hst2]
      by_cases hj : j = i
      · subst hj; simp [fundOcc, oneQuantum]
      · simp [fundOcc, noQuanta, hj])
    have a := acc_sub c (e := s.nvib ^ 3 + s.nvib ^ 2 + s.nvib + 29) (d := 3) a1 a0 (by omega) (by omega) le_rfl le_rfl
    exact a.1.trans (mul_le_mul_of_nonneg_right g2' ((abs_nonneg _).trans a.2))

/-- An eigensolver that finds the same large eigenvalue nine times. -/
noncomputable def stiffOracles (rnd : ℝ → ℝ) : Oracles (Fl rnd) Nat :=
  { unitOracles rnd with eigen := fun _ => (List.replicate 9 ⟨10 ^ 12⟩, fun i j => ⟨if i = j then 1 else 0⟩) }

theorem round_half (hr : Rounds u rnd) (hu : u ≤ 1 / 2) {x : ℝ} (hx : 0 < x) : x / 2 ≤ rnd x ∧ rnd x ≤ 2 * x := by
  have h := abs_le.1 (hr.2.2 x)
  rw [abs_of_pos hx] at h
  constructor <;> nlinarith

theorem stiff_freq (hr : Rounds u rnd) (hu : u ≤ 1 / 2) : 1000 ≤ (toWavenumber (⟨10 ^ 12⟩ : Fl rnd)).val := by
  have h0 : rnd 0 = 0 := by
    have := hr.2.2 0
    simpa using this
  have hlt : Arith.lt (⟨10 ^ 12⟩ : Fl rnd) (Arith.lit 0.0) = false := by
    show decide ((10 ^ 12 : ℝ) < rnd ((0.0 : ℚ) : ℝ)) = false
    have : ((0.0 : ℚ) : ℝ) = 0 := by norm_num
    rw [this, h0]
    norm_num
  rw [toWavenumber, hlt]
  show 1000 ≤ rnd (rnd (rnd (rnd ((1e4 : ℚ) : ℝ) * rnd ((2.453985533779692 : ℚ) : ℝ)) /
    rnd (rnd (rnd ((2.0 : ℚ) : ℝ) * rnd Real.pi) * rnd ((2.99792458 : ℚ) : ℝ))) * rnd (Real.sqrt (10 ^ 12)))
  have hs : Real.sqrt (10 ^ 12) = 10 ^ 6 := by
    rw [show (10 : ℝ) ^ 12 = (10 ^ 6) ^ 2 by norm_num]
    exact Real.sqrt_sq (by norm_num)
  rw [hs]
  have b1 := round_half hr hu (show (0 : ℝ) < ((1e4 : ℚ) : ℝ) by norm_num)
  have b2 := round_half hr hu (show (0 : ℝ) < ((2.453985533779692 : ℚ) : ℝ) by norm_num)
  have b3 := round_half hr hu (show (0 : ℝ) < ((2.0 : ℚ) : ℝ) by norm_num)
  have b4 := round_half hr hu Real.pi_pos
  have b5 := round_half hr hu (show (0 : ℝ) < ((2.99792458 : ℚ) : ℝ) by norm_num)
  have b6 := round_half hr hu (show (0 : ℝ) < 10 ^ 6 by norm_num)
  generalize rnd ((1e4 : ℚ) : ℝ) = a1 at *
  generalize rnd ((2.453985533779692 : ℚ) : ℝ) = a2 at *
  generalize rnd ((2.0 : ℚ) : ℝ) = a3 at *
  generalize rnd ((2.99792458 : ℚ) : ℝ) = a5 at *
  generalize rnd (10 ^ 6) = a6 at *
  have p4 := Real.pi_le_four
  have p3 := Real.pi_pos
  norm_num at b1 b2 b3 b5 b6
  generalize rnd Real.pi = a4 at *
  have m1 : 6000 ≤ a1 * a2 := by nlinarith
  have c1 := round_half hr hu (show 0 < a1 * a2 by linarith)
  have m2 : 0 < a3 * a4 := mul_pos (by linarith) (by linarith)
  have m2' : a3 * a4 ≤ 32 := by nlinarith
  have c2 := round_half hr hu m2
  generalize rnd (a1 * a2) = d1 at *
  generalize rnd (a3 * a4) = d2 at *
  have m3 : 0 < d2 * a5 := mul_pos (by linarith) (by linarith)
  have m3' : d2 * a5 ≤ 384 := by nlinarith
  have c3 := round_half hr hu m3
  generalize rnd (d2 * a5) = d3 at *
  have m4 : 3 ≤ d1 / d3 := by
    rw [le_div_iff₀ (by linarith)]
    linarith
  have c4 := round_half hr hu (show 0 < d1 / d3 by linarith)
  generalize rnd (d1 / d3) = d4 at *
  have m5 : 10 ^ 5 ≤ d4 * a6 := by nlinarith
  have c5 := round_half hr hu (show 0 < d4 * a6 by linarith)
  linarith

/-- A run in double precision that meets the hypotheses of `c117_run` with `κ = 3`, whatever the force constants. -/
example (fc2 : Mat (Fl (nearest 53))) (f3x : T3 (Fl (nearest 53))) (f4x : T4 (Fl (nearest 53))) :
    let s : SpectroIn (Fl (nearest 53)) := { roundedTop (nearest 53) with nvib := 2, i2vib := 3 }
    ∃ out m F4, Rounds (2 ^ (-(53 : ℕ) : ℤ)) (nearest 53) ∧ s.rotor = .asymmTop ∧
    run s (stiffOracles _) (.quartic fc2 f3x f4x) = some out ∧
    runModes s (stiffOracles _) fc2 = some m ∧
    force4 9 (rot4th 9 3 s.axes f4x) m.lx 2 (vecOf m.freq) = some F4 ∧
    (out.resonances.fermi1 = [] ∧ out.resonances.fermi2 = []) ∧
    (((2 : ℕ) : ℝ) ^ 3 + (2 : ℕ) ^ 2 + (2 : ℕ) + 29 + 24 * 3) * 2 ^ (-(53 : ℕ) : ℤ) ≤ 1 / 2 ∧ (∀ i < 2, 0 < (vecOf m.freq i).val) ∧
    ApartBy 3 2 (fun _ _ _ => False) fun i => (vecOf m.freq i).val := by
  have hr := c107_nearest 53 (by norm_num)
  generalize hrnd : nearest 53 = rnd at *
  intro s
  obtain ⟨out, hout⟩ := Option.isSome_iff_exists.1 (c74_any s (stiffOracles rnd) fc2 f3x f4x rfl
    (show 0 < 2 by decide) (show 2 ≤ 9 by decide) (show 3 = 2 * (2 + 1) / 2 by decide) (show 2 < 4 by decide)
    (fun m => by show (List.replicate 9 _).length = 9; simp) (fun p v q => rfl) (fun m => mapM_runs fun i _ => by
      simp [stiffOracles, unitOracles, irrepLoop]))
  obtain ⟨m, F4, hm, hF, hfin⟩ := run_quartic hout
  have hfreq : ∀ i < 2, vecOf m.freq i = toWavenumber ⟨10 ^ 12⟩ := by
    have hm' := hm
    unfold runModes at hm'
    simp only [Option.bind_eq_bind, Option.bind_eq_some_iff] at hm'
    obtain ⟨p, -, irr, -, e⟩ := hm'
    obtain rfl := Option.some.inj e
    intro i hi
    obtain ⟨hlen, σ, s1, -, -, s4⟩ := c11_pairs_rearranged (List.replicate 9 (⟨10 ^ 12⟩ : Fl rnd))
      (fun i j => ⟨if i = j then 1 else 0⟩) true
    have h9 := (s4 i (by simp; omega)).1
    rw [List.getElem?_replicate, if_pos (by have := s1 i (by simp; omega); simpa using this)] at h9
    simp only [vecOf, toWavenumbers, List.getD_eq_getElem?_getD, List.getElem?_map]
    show ((Option.map toWavenumber (symmEigenDecomp (List.replicate 9 (⟨10 ^ 12⟩ : Fl rnd))
      (fun i j => ⟨if i = j then 1 else 0⟩) true).1[i]?).getD _) = _
    rw [h9]
    rfl
  have hu : (2 : ℝ) ^ (-(53 : ℕ) : ℤ) ≤ 1 / 1000 := by norm_num
  generalize (2 : ℝ) ^ (-(53 : ℕ) : ℤ) = u at *
  have hW := stiff_freq hr (by linarith)
  obtain ⟨r, x, hf, zc, v, v', e1, -, -, -, -, -, -, -, -, -, -, -, -, -, -, f10⟩ := finish_parts hfin
  obtain ⟨t, -, hmd, -, -, -, -, h1, h2⟩ := restst_parts e1
  rw [hmd] at h1 h2
  subst f10
  refine ⟨out, m, F4, hr, rfl, hout, hm, hF, ⟨?_, ?_⟩, ?_, fun i hi => by rw [hfreq i hi]; linarith, ?_⟩
  · have h1' := h1
    rw [show s.rotor = Rotor.asymmTop from rfl, fermi1, partition_asym .asymmTop rfl] at h1'
    have h1'' := Option.some.inj h1'
    rw [← h1'', List.flatMap_eq_nil_iff]
    intro i hi
    rw [List.flatMap_eq_nil_iff]
    intro j hj
    have hi' : i < 2 := List.mem_range.1 hi
    have hj' : j < 2 := List.mem_range.1 hj
    rw [ferm1Test, hfreq i hi', hfreq j hj']
    generalize toWavenumber (⟨10 ^ 12⟩ : Fl rnd) = w at *
    have : Arith.le (Arith.abs (Arith.lit 2.0 * w - w)) (FTOL1 : Fl rnd) = false := by
      show decide (|rnd (rnd (rnd ((2.0 : ℚ) : ℝ) * w.val) - w.val)| ≤ rnd ((200.0 : ℚ) : ℝ)) = false
      have hu2 : u ≤ 1 / 2 := by linarith
      have b0 := (round_half hr hu2 (show (0 : ℝ) < ((200.0 : ℚ) : ℝ) by norm_num)).2
      have b1 := (abs_le.1 (hr.2.2 ((2.0 : ℚ) : ℝ))).1
      generalize rnd ((200.0 : ℚ) : ℝ) = b at *
      generalize rnd ((2.0 : ℚ) : ℝ) = d at *
      norm_num at b0 b1
      have b2 := (abs_le.1 (hr.2.2 (d * w.val))).1
      have hd : 1.98 ≤ d := by linarith
      have hdw : 1.98 * w.val ≤ d * w.val := mul_le_mul_of_nonneg_right hd (by linarith)
      rw [abs_of_pos (by linarith)] at b2
      have hu0 := hr.1
      generalize rnd (d * w.val) = g at *
      have hg : 1.9 * w.val ≤ g := by nlinarith
      have b3 := (round_half hr hu2 (show 0 < g - w.val by linarith)).1
      rw [decide_eq_false_iff_not, not_le]
      exact lt_of_lt_of_le (by linarith) (le_abs_self _)
    rw [this]
    rfl
  · refine List.eq_nil_iff_forall_not_mem.2 fun f hf => ?_
    have := fermi2_asym_mem h2 hf
    have h2 : s.nvib = 2 := rfl
    omega
  · push_cast
    linarith
  · intro k l n hk hl hn _
    dsimp only
    rw [hfreq k hk, hfreq l hl, hfreq n hn, add_sub_cancel_right, abs_of_pos (by linarith)]
    linarith

end Verif
