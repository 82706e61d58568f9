import Verif.Props.RoundingAlpha
import Verif.Props.Quartic
import Verif.Props.Run
import Verif.Props.RoundingRun

/-!
# C114, run: rounding errors of the reported rotational constants
-/

namespace Verif

open Finset

variable {u κ : ℝ} {rnd : ℝ → ℝ} {ι : Type}

/-- Entries written one by one, in any arithmetic. -/
theorem foldlM_set_any {α X : Type} (L : List X) (key : X → Nat × Nat) (val : X → Option α) (m : Mat α)
    (hv : ∀ x ∈ L, (val x).isSome) (hinj : ∀ x ∈ L, ∀ y ∈ L, key x = key y → val x = val y) :
    ∃ R, L.foldlM (fun m x => (val x).map fun v => Mat.set m (key x).1 (key x).2 v) m = some R ∧
      ∀ x ∈ L, val x = some (R (key x).1 (key x).2) := by
  induction L using List.reverseRecOn with
  | nil => exact ⟨m, rfl, by simp⟩
  | append_singleton L a ih =>
    obtain ⟨R, h1, h2⟩ := ih (fun x hx => hv x (by simp [hx]))
      (fun x hx y hy => hinj x (by simp [hx]) y (by simp [hy]))
    obtain ⟨v, ha⟩ := Option.isSome_iff_exists.1 (hv a (by simp))
    refine ⟨Mat.set R (key a).1 (key a).2 v, ?_, ?_⟩
    · rw [List.foldlM_append, h1]
      simp [ha]
    · intro x hx
      by_cases hk : key x = key a
      · rw [hinj x hx a (by simp) hk, ha, hk]
        simp [Mat.set]
      · have hx' : x ∈ L := by
          rcases List.mem_append.1 hx with h | h
          · exact h
          · simp at h; exact absurd (by rw [h]) hk
        rw [h2 x hx']
        congr 1
        unfold Mat.set
        rw [if_neg]
        rintro ⟨e1, e2⟩
        exact hk (Prod.ext e1 e2)

/-- The rotational constants that `finish` reports. -/
theorem finish_reported {α : Type} [Arith α] {s : SpectroIn α} {o : Oracles α ι} {freq : List α} {f3 : T3 α} {f4 : T4 α} {irreps : List ι}
    {lxm lx : Mat α} {q : Output α ι} (h : finish s o freq f3 f4 irreps lxm lx = some q) :
    reststNew s.rotor s.nvib s.i2vib (makeZmat s.nvib s.natom lxm) f3 (vecOf freq) = some q.resonances ∧
    finishRots s (vecOf freq) f3 (makeZmat s.nvib s.natom lxm) (wilsonA s.nvib s.natom s.pos lxm s.weights) q.resonances q.quartic =
      some q.rots := by
  unfold finish at h
  simp only [Option.bind_eq_bind, Option.bind_eq_some_iff] at h
  obtain ⟨qu, -, r, hr, x, hx, hf, hhf, zc, hzc, rots, hrots, v, hv, v', hv', hq⟩ := h
  obtain rfl := Option.some.inj hq
  exact ⟨hr, hrots⟩

/-- The averaged constant of one state, in rounded arithmetic. -/
theorem acc_averaged (c : RoundCtx u κ rnd) (n : Nat) (B I w : Vec (Fl rnd)) (A : Mat (Fl rnd)) (zeta F3 : T3 (Fl rnd))
    (cs : List Coriolis) (x : Nat)
    (hone : ∀ c ∈ cs, ∀ c' ∈ cs, (c.i = c'.i ∧ c.j = c'.j ∨ c.i = c'.j ∧ c.j = c'.i) → c.axis = c'.axis)
    (hw : ∀ j < n, 0 < (w j).val)
    (ap : SquaresApart κ n (fun i j x => (⟨i, j, x⟩ : Coriolis) ∈ cs ∨ (⟨j, i, x⟩ : Coriolis) ∈ cs) (fun i => (w i).val) x)
    (states : List State) (k : Nat) (v : List Nat) (hk : states[k]? = some (.i1st v)) (hv : v.length = n) :
    let R := fun i j x => (⟨i, j, x⟩ : Coriolis) ∈ cs ∨ (⟨j, i, x⟩ : Coriolis) ∈ cs
    let A' := fun k p q => (A k (pairIdx p q)).val
    ∃ r, alphaaEntry B (alpha n B I w A zeta F3 cs) ((List.range n).map Mode.i1) states k x = some r ∧
      Acc u κ (2 * n + 21) 1 ((B x).val + ∑ i ∈ range n, alphaSpec R n (fun a => (B a).val) (fun a => (I a).val) (fun a => (w a).val) A'
        (fun a b k => (zeta a b k).val) (fun a b k => (F3 a b k).val) i x * ((v.getD i 0 : ℕ) + 1 / 2)) r
      (|(B x).val| + ∑ i ∈ range n, alphaSize R n (fun a => (B a).val) (fun a => (I a).val)
        (fun a => (w a).val) A' (fun a b k => (zeta a b k).val) (fun a b k => (F3 a b k).val) i x * ((v.getD i 0 : ℕ) + 1 / 2)) := by
  intro R A'
  have e : (fun i j x => makeIcorol cs (i, j) = some x) = R := icorol_eq hone
  have h := fun i (hi : i < n) => acc_alpha c n B I w A zeta F3 cs i x hi hw fun j hj hij hn => ap i j hi hj hij (by
    have := congrFun (congrFun (congrFun e i) j) x
    exact fun hR => hn (Eq.mpr this hR))
  simp only [alpha_exact, e] at h
  obtain ⟨s, hs1, hs2⟩ := acc_alphaa c n x (alpha n B I w A zeta F3 cs) _ _ v hv h n le_rfl
  refine ⟨B x + s, ?_, ?_⟩
  · have cnt : (Mode.count ((List.range n).map Mode.i1)).1 = n := by
      have hm : degModes .asymmTop n (fun _ => (0 : ℝ)) = (List.range n).map Mode.i1 := rfl
      rw [c18_count, ← hm, partition_asym .asymmTop rfl]
      simp
    rw [alphaaEntry, hk, Option.bind_some, cnt, hs1]
    rfl
  · exact acc_add c (e := 2 * n + 21) (d := 1) (acc_exact c (B x) _ _ rfl rfl) hs2 (by omega) (by omega) (by omega) le_rfl

/-- C114, run: let the run of an asymmetric top be carried out in rounded arithmetic, with the computed frequencies, force constants,
Coriolis constants and inertia derivatives. One set of constants is reported for the ground state and one for each fundamental, and each
reported constant differs from the constant of the reduced Hamiltonian at equilibrium, as computed, plus `Σ α_i (v_i + ½)` for these
numbers by at most `(4 n + 46 + 16 κ) u` times the sum of the sizes of the terms, the equilibrium constant counted twice. -/
theorem c114_run (hr : Rounds u rnd) (h1 : 1 ≤ κ) (s : SpectroIn (Fl rnd)) (o : Oracles (Fl rnd) ι)
    (fc2 : Mat (Fl rnd)) (f3x : T3 (Fl rnd)) (f4x : T4 (Fl rnd)) (out : Output (Fl rnd) ι) (ht : s.rotor = .asymmTop)
    (h : run s o (.quartic fc2 f3x f4x) = some out) (m : ModesOut (Fl rnd) ι) (hm : runModes s o fc2 = some m)
    (hone : ∀ c ∈ out.resonances.coriolis, ∀ c' ∈ out.resonances.coriolis,
      (c.i = c'.i ∧ c.j = c'.j ∨ c.i = c'.j ∧ c.j = c'.i) → c.axis = c'.axis)
    (hu : (2 * (s.nvib : ℝ) + 23 + 8 * κ) * u ≤ 1 / 2) (hp : ∀ i < s.nvib, 0 < (vecOf m.freq i).val)
    (ap : ∀ x < 3, SquaresApart κ s.nvib (fun i j x => (⟨i, j, x⟩ : Coriolis) ∈ out.resonances.coriolis ∨
      (⟨j, i, x⟩ : Coriolis) ∈ out.resonances.coriolis) (fun i => (vecOf m.freq i).val) x) :
    let R := fun i j x => (⟨i, j, x⟩ : Coriolis) ∈ out.resonances.coriolis ∨ (⟨j, i, x⟩ : Coriolis) ∈ out.resonances.coriolis
    let W : Nat → ℝ := fun i => (vecOf m.freq i).val
    let φ : Nat → Nat → Nat → ℝ := fun a b c =>
      (f3Of (force3 s.n3n (rot3rd s.n3n s.natom s.axes f3x) m.lx s.nvib (vecOf m.freq)) a b c).val
    let ζ : Nat → Nat → Nat → ℝ := fun a b c => (makeZmat s.nvib s.natom m.lxm a b c).val
    let A : Nat → Nat → Nat → ℝ := fun k p q => (wilsonA s.nvib s.natom s.pos m.lxm s.weights k (pairIdx p q)).val
    let B : Nat → ℝ := fun a => (s.rotcon a).val
    let I : Nat → ℝ := fun a => (s.primat a).val
    out.rots.length = s.nvib + 1 ∧ ∀ k ≤ s.nvib, ∃ r, out.rots[k]? = some r ∧ ∃ v, r.state = .i1st v ∧ v.length = s.nvib ∧
      (∀ i < s.nvib, v[i]? = some (if i + 1 = k then 1 else 0)) ∧
      let near := fun (x : Nat) (value equil : Fl rnd) =>
        |value.val - (equil.val + ∑ i ∈ range s.nvib, alphaSpec R s.nvib B I W A ζ φ i x * ((if i + 1 = k then 1 else 0) + 1 / 2))| ≤
          (4 * s.nvib + 46 + 16 * κ) * u * (|equil.val| + (2 * |B x| +
            ∑ i ∈ range s.nvib, alphaSize R s.nvib B I W A ζ φ i x * ((if i + 1 = k then 1 else 0) + 1 / 2)))
      near 0 r.a out.quartic.bza ∧ near 1 r.b out.quartic.bxa ∧ near 2 r.c out.quartic.bya := by
  intro R W φ ζ A B I
  obtain ⟨m', F4', hm', hF', hfin⟩ := run_quartic h
  obtain rfl : m' = m := Option.some.inj (hm'.symm.trans hm)
  obtain ⟨e1, e2⟩ := finish_reported hfin
  obtain ⟨t, hnew, hmd, hst, -, -, -, -, -⟩ := restst_parts e1
  have hmodes : out.resonances.modes = (List.range s.nvib).map Mode.i1 := by rw [hmd, ht]; rfl
  have hsym : s.rotor.isSymTop = false := by rw [ht]; rfl
  have hdia : (s.rotor == Rotor.diatomic) = false := by rw [ht]; rfl
  rw [finishRots, hsym, hdia] at e2
  simp only [Bool.or_self, Bool.false_eq_true, if_false, Option.bind_eq_bind, Option.bind_eq_some_iff] at e2
  obtain ⟨N, hN, hrota⟩ := e2
  have hh : 2 < s.header.getD 7 4 := by
    by_contra hc
    rw [rota, List.range_succ_eq_map, List.foldlM_cons, rotaStep, if_neg hc] at hrota
    cases hrota
  obtain ⟨g0, g1, -⟩ := states_first hnew
  rw [hmd, ht, partition_asym .asymmTop rfl, List.length_range] at g1
  have hi : ∀ k ≤ s.nvib, ∃ v, out.resonances.states[k]? = some (.i1st v) ∧ v.length = s.nvib ∧
      ∀ i < s.nvib, v[i]? = some (if i + 1 = k then 1 else 0) := by
    intro k hk
    rw [hst]
    rcases k with _ | k
    · exact ⟨_, g0, by simp, fun i hi => by simp [List.getElem?_replicate, hi]⟩
    · refine ⟨_, (g1 k (by omega)).1, by simp, fun i hi => ?_⟩
      rw [List.getElem?_set]
      by_cases e : k = i
      · subst e; simp [hi]
      · have : ¬ i + 1 = k + 1 := by omega
        rw [if_neg e, List.getElem?_replicate, if_pos hi, if_neg this]
  have hlen : s.nvib + 1 ≤ out.resonances.states.length := by
    obtain ⟨v, hv, -⟩ := hi s.nvib le_rfl
    obtain ⟨h, -⟩ := List.getElem?_eq_some_iff.1 hv
    omega
  have hrep : ∀ p : State → Bool, (∀ v, p (.i1st v) = true) → reported p (s.nvib + 1) out.resonances.states =
      (List.range (s.nvib + 1)).map fun n => (n, out.resonances.states.getD n (.i1st [])) := by
    intro p hp'
    have := reported_flatMap p (s.nvib + 1) out.resonances.states id
    rw [List.map_id] at this
    rw [this, List.map_eq_flatMap]
    simp only [List.flatMap_def]
    congr 1
    refine List.map_congr_left fun n hn => ?_
    obtain ⟨v, hv, -⟩ := hi n (by have := List.mem_range.1 hn; omega)
    simp [hv, hp', List.getD_eq_getElem?_getD]
  rw [rota_eq _ _ _ _ _ _ hh hlen, hrep _ fun _ => rfl] at hrota
  have hro := Option.some.inj hrota
  obtain ⟨gr1, gr2⟩ := c107_growth hr.1 h1 (2 * s.nvib + 23) 1 le_rfl (by push_cast; linarith)
  have c : RoundCtx u κ rnd := ⟨hr, h1, gr1⟩
  have gr3 : growth u κ (2 * s.nvib + 23) 1 - 1 ≤ (4 * s.nvib + 46 + 16 * κ) * u := gr2.trans (le_of_eq (by push_cast; ring))
  have entry : ∀ k ≤ s.nvib, ∀ x < 3, alphaaEntry s.rotcon (alpha s.nvib s.rotcon s.primat (vecOf m'.freq)
      (wilsonA s.nvib s.natom s.pos m'.lxm s.weights) (makeZmat s.nvib s.natom m'.lxm)
      (f3Of (force3 s.n3n (rot3rd s.n3n s.natom s.axes f3x) m'.lx s.nvib (vecOf m'.freq))) out.resonances.coriolis)
      ((List.range s.nvib).map Mode.i1) out.resonances.states k x = some (N k x) := by
    obtain ⟨N', n1, n2⟩ := foldlM_set_any ((List.range 3).flatMap fun axis => (List.range (s.nvib + 1)).map fun n => (n, axis)) id
      (fun p => alphaaEntry s.rotcon (alpha s.nvib s.rotcon s.primat (vecOf m'.freq)
      (wilsonA s.nvib s.natom s.pos m'.lxm s.weights) (makeZmat s.nvib s.natom m'.lxm)
      (f3Of (force3 s.n3n (rot3rd s.n3n s.natom s.axes f3x) m'.lx s.nvib (vecOf m'.freq))) out.resonances.coriolis)
      ((List.range s.nvib).map Mode.i1) out.resonances.states p.1 p.2) (fun _ _ => Arith.lit 0) (by
        rintro ⟨k, x⟩ hx
        simp only [List.mem_flatMap, List.mem_map, List.mem_range, Prod.mk.injEq] at hx
        obtain ⟨a, ha, k', hk', rfl, rfl⟩ := hx
        obtain ⟨v, hv, hvl, -⟩ := hi k' (by omega)
        obtain ⟨r, hr', -⟩ := acc_averaged c s.nvib s.rotcon s.primat (vecOf m'.freq) _ _ _ _ a hone hp (ap a ha) _ k' v hv hvl
        dsimp only
        rw [hr']
        rfl) (by rintro ⟨a, b⟩ - ⟨c, d⟩ - e; obtain ⟨rfl, rfl⟩ := Prod.mk.inj e; rfl)
    have hN' := hN
    rw [hmodes, alphaa] at hN'
    obtain rfl : N' = N := Option.some.inj (n1.symm.trans hN')
    intro k hk x hx
    exact n2 (k, x) (by simp only [List.mem_flatMap, List.mem_map, List.mem_range]; exact ⟨x, hx, k, by omega, rfl⟩)
  refine ⟨by rw [← hro]; simp, fun k hk => ?_⟩
  obtain ⟨v, hv, hvl, hvv⟩ := hi k hk
  refine ⟨_, by rw [← hro, List.getElem?_map, List.getElem?_map, List.getElem?_range (by omega)]; rfl, v, ?_, hvl, hvv, ?_⟩
  · simp [List.getD_eq_getElem?_getD, hv]
  intro near
  have main : ∀ x < 3, ∀ b : Fl rnd, near x (b + (N k x - s.rotcon x)) b := by
    intro x hx b
    obtain ⟨r, hr1, hr2⟩ := acc_averaged c s.nvib s.rotcon s.primat (vecOf m'.freq) (wilsonA s.nvib s.natom s.pos m'.lxm s.weights)
      (makeZmat s.nvib s.natom m'.lxm)
      (f3Of (force3 s.n3n (rot3rd s.n3n s.natom s.axes f3x) m'.lx s.nvib (vecOf m'.freq))) _ x hone hp (ap x hx) _ k v hv hvl
    obtain rfl : r = N k x := Option.some.inj (hr1.symm.trans (entry k hk x hx))
    have a := acc_add c (e := 2 * s.nvib + 23) (d := 1) (acc_exact c b _ _ rfl rfl) (acc_sub c (e := 2 * s.nvib + 22) (d := 1) hr2
      (acc_exact c (s.rotcon x) _ _ rfl rfl) (by omega) (by omega) le_rfl (by omega)) (by omega) (by omega) (by omega) le_rfl
    have hv' : ∀ i ∈ range s.nvib, ((v.getD i 0 : ℕ) : ℝ) = if i + 1 = k then 1 else 0 := fun i hi => by
      rw [List.getD_eq_getElem?_getD, hvv i (mem_range.1 hi), Option.getD_some]
      split_ifs <;> simp
    have s1 : ∀ f : Nat → ℝ, ∑ i ∈ range s.nvib, f i * (((v.getD i 0 : ℕ) : ℝ) + 1 / 2) =
        ∑ i ∈ range s.nvib, f i * ((if i + 1 = k then 1 else 0) + 1 / 2) := fun f => sum_congr rfl fun i hi => by rw [hv' i hi]
    rw [s1, s1] at a
    have a' := a.1.trans (mul_le_mul_of_nonneg_right gr3 ((abs_nonneg _).trans a.2))
    simp only [near, R, W, φ, ζ, A, B, I]
    refine le_trans (le_of_eq (congrArg _ ?_)) (a'.trans (le_of_eq ?_))
    · ring
    · ring
  exact ⟨main 0 (by omega) _, main 1 (by omega) _, main 2 (by omega) _⟩

/-- An eigensolver that finds one eigenvalue four times as large as the others. -/
noncomputable def splitOracles (rnd : ℝ → ℝ) : Oracles (Fl rnd) Nat :=
  { unitOracles rnd with eigen := fun _ => (⟨4 * 10 ^ 12⟩ :: List.replicate 8 ⟨10 ^ 12⟩, fun i j => ⟨if i = j then 1 else 0⟩) }

theorem split_freq (hr : Rounds u rnd) (hu : u ≤ 1 / 1000) :
    3 / 2 * (toWavenumber (⟨10 ^ 12⟩ : Fl rnd)).val ≤ (toWavenumber (⟨4 * 10 ^ 12⟩ : Fl rnd)).val := by
  have h1000 := stiff_freq hr (by linarith)
  have h0 : rnd 0 = 0 := by
    have := hr.2.2 0
    simpa using this
  have hlt : ∀ x : ℝ, 0 < x → Arith.lt (⟨x⟩ : Fl rnd) (Arith.lit 0.0) = false := by
    intro x hx
    show decide (x < rnd ((0.0 : ℚ) : ℝ)) = false
    have : ((0.0 : ℚ) : ℝ) = 0 := by norm_num
    rw [this, h0]
    simp [hx.le]
  rw [toWavenumber, hlt _ (by norm_num)] at h1000 ⊢
  rw [toWavenumber, hlt _ (by norm_num)]
  have s1 : Real.sqrt (10 ^ 12) = 10 ^ 6 := by
    rw [show (10 : ℝ) ^ 12 = (10 ^ 6) ^ 2 by norm_num]
    exact Real.sqrt_sq (by norm_num)
  have s2 : Real.sqrt (4 * 10 ^ 12) = 2 * 10 ^ 6 := by
    rw [show (4 * 10 ^ 12 : ℝ) = (2 * 10 ^ 6) ^ 2 by norm_num]
    exact Real.sqrt_sq (by norm_num)
  have u0 := hr.1
  change 1000 ≤ rnd ((WAVE : Fl rnd).val * rnd (Real.sqrt (10 ^ 12))) at h1000
  show 3 / 2 * rnd ((WAVE : Fl rnd).val * rnd (Real.sqrt (10 ^ 12))) ≤ rnd ((WAVE : Fl rnd).val * rnd (Real.sqrt (4 * 10 ^ 12)))
  rw [s1] at h1000 ⊢
  rw [s2]
  generalize (WAVE : Fl rnd).val = c at *
  have a1 := abs_le.1 (hr.2.2 (10 ^ 6))
  have a2 := abs_le.1 (hr.2.2 (2 * 10 ^ 6))
  rw [abs_of_pos (by norm_num)] at a1 a2
  generalize rnd (10 ^ 6) = d1 at *
  generalize rnd (2 * 10 ^ 6) = d2 at *
  have hd1 : 999000 ≤ d1 ∧ d1 ≤ 1001000 := by constructor <;> nlinarith
  have hd2 : 1998000 ≤ d2 ∧ d2 ≤ 2002000 := by constructor <;> nlinarith
  have b1 := abs_le.1 (hr.2.2 (c * d1))
  have b2 := abs_le.1 (hr.2.2 (c * d2))
  have hc : 0 < c := by
    by_contra hc
    have : c * d1 ≤ 0 := mul_nonpos_of_nonpos_of_nonneg (not_lt.1 hc) (by linarith)
    rw [abs_of_nonpos this] at b1
    nlinarith
  have p1 : 0 < c * d1 := mul_pos hc (by linarith)
  have p2 : 0 < c * d2 := mul_pos hc (by linarith)
  rw [abs_of_pos p1] at b1
  rw [abs_of_pos p2] at b2
  have q1 : rnd (c * d1) ≤ 1.001 * (c * d1) := by nlinarith
  have q2 : 0.999 * (c * d2) ≤ rnd (c * d2) := by nlinarith
  have q3 : c * d1 ≤ c * 1001000 := mul_le_mul_of_nonneg_left hd1.2 hc.le
  have q4 : c * 1998000 ≤ c * d2 := mul_le_mul_of_nonneg_left hd2.1 hc.le
  linarith

/-- A run in double precision that meets the hypotheses of `c114_run` with `κ = 3`, whatever the force constants. -/
example (fc2 : Mat (Fl (nearest 53))) (f3x : T3 (Fl (nearest 53))) (f4x : T4 (Fl (nearest 53))) :
    let s : SpectroIn (Fl (nearest 53)) := { roundedTop (nearest 53) with nvib := 2, i2vib := 3 }
    ∃ out m, Rounds (2 ^ (-(53 : ℕ) : ℤ)) (nearest 53) ∧ s.rotor = .asymmTop ∧
    run s (splitOracles _) (.quartic fc2 f3x f4x) = some out ∧
    runModes s (splitOracles _) fc2 = some m ∧
    (∀ c ∈ out.resonances.coriolis, ∀ c' ∈ out.resonances.coriolis,
      (c.i = c'.i ∧ c.j = c'.j ∨ c.i = c'.j ∧ c.j = c'.i) → c.axis = c'.axis) ∧
    (2 * ((2 : ℕ) : ℝ) + 23 + 8 * 3) * 2 ^ (-(53 : ℕ) : ℤ) ≤ 1 / 2 ∧ (∀ i < 2, 0 < (vecOf m.freq i).val) ∧
    ∀ x < 3, SquaresApart 3 2 (fun i j x => (⟨i, j, x⟩ : Coriolis) ∈ out.resonances.coriolis ∨
      (⟨j, i, x⟩ : Coriolis) ∈ out.resonances.coriolis) (fun i => (vecOf m.freq i).val) x := by
  have hr := c107_nearest 53 (by norm_num)
  generalize hrnd : nearest 53 = rnd at *
  intro s
  obtain ⟨out, hout⟩ := Option.isSome_iff_exists.1 (c74_any s (splitOracles rnd) fc2 f3x f4x rfl
    (show 0 < 2 by decide) (show 2 ≤ 9 by decide) (show 3 = 2 * (2 + 1) / 2 by decide) (show 2 < 4 by decide)
    (fun m => by show (_ :: List.replicate 8 _).length = 9; simp) (fun p v q => rfl) (fun m => mapM_runs fun i _ => by
      simp [splitOracles, unitOracles, irrepLoop]))
  obtain ⟨m, F4, hm, hF, hfin⟩ := run_quartic hout
  have hsort : (symmEigenDecomp ((⟨4 * 10 ^ 12⟩ : Fl rnd) :: List.replicate 8 ⟨10 ^ 12⟩)
      (fun i j => ⟨if i = j then 1 else 0⟩) true).1 = ⟨4 * 10 ^ 12⟩ :: List.replicate 8 ⟨10 ^ 12⟩ := by
    unfold symmEigenDecomp
    dsimp only
    rw [List.mergeSort_of_pairwise]
    · rw [List.zipIdx_map_fst]
    · have e : ∀ x y : ℝ, ∀ a b : Nat, y ≤ x → eigenLe true ((⟨x⟩ : Fl rnd), a) (⟨y⟩, b) = true := by
        intro x y a b hxy
        show (!decide (x < y)) = true
        simp [hxy]
      simp only [List.replicate, List.zipIdx_cons, List.zipIdx_nil, List.pairwise_cons, List.forall_mem_cons, List.not_mem_nil,
        false_imp_iff, implies_true, and_true, List.Pairwise.nil]
      refine ⟨⟨?_, ?_, ?_, ?_, ?_, ?_, ?_, ?_⟩, ⟨?_, ?_, ?_, ?_, ?_, ?_, ?_⟩, ⟨?_, ?_, ?_, ?_, ?_, ?_⟩, ⟨?_, ?_, ?_, ?_, ?_⟩,
        ⟨?_, ?_, ?_, ?_⟩, ⟨?_, ?_, ?_⟩, ⟨?_, ?_⟩, ?_⟩ <;> exact e _ _ _ _ (by norm_num)
  have hfreq : vecOf m.freq 0 = toWavenumber ⟨4 * 10 ^ 12⟩ ∧ vecOf m.freq 1 = toWavenumber ⟨10 ^ 12⟩ := by
    have hm' := hm
    unfold runModes at hm'
    simp only [Option.bind_eq_bind, Option.bind_eq_some_iff] at hm'
    obtain ⟨p, -, irr, -, e⟩ := hm'
    obtain rfl := Option.some.inj e
    simp only [vecOf, toWavenumbers, List.getD_eq_getElem?_getD, List.getElem?_map]
    constructor
    · show ((Option.map toWavenumber (symmEigenDecomp ((⟨4 * 10 ^ 12⟩ : Fl rnd) :: List.replicate 8 ⟨10 ^ 12⟩)
        (fun i j => ⟨if i = j then 1 else 0⟩) true).1[0]?).getD _) = _
      rw [hsort]; rfl
    · show ((Option.map toWavenumber (symmEigenDecomp ((⟨4 * 10 ^ 12⟩ : Fl rnd) :: List.replicate 8 ⟨10 ^ 12⟩)
        (fun i j => ⟨if i = j then 1 else 0⟩) true).1[1]?).getD _) = _
      rw [hsort]; rfl
  have hu : (2 : ℝ) ^ (-(53 : ℕ) : ℤ) ≤ 1 / 1000 := by norm_num
  generalize (2 : ℝ) ^ (-(53 : ℕ) : ℤ) = u at *
  have hW := stiff_freq hr (by linarith)
  have hV := split_freq hr hu
  rw [← hfreq.2] at hW
  rw [← hfreq.1, ← hfreq.2] at hV
  obtain ⟨e1, -⟩ := finish_reported hfin
  have hcor : out.resonances.coriolis = [] := by
    have h' := e1
    unfold reststNew at h'
    simp only [Option.bind_eq_bind, Option.bind_eq_some_iff] at h'
    obtain ⟨cor, hc, f1, -, f2, -, dd, -, t, -, hr'⟩ := h'
    rw [← Option.some.inj hr']
    show cor = []
    rw [show s.rotor = Rotor.asymmTop from rfl, coriolis, partition_asym .asymmTop rfl] at hc
    rw [← Option.some.inj hc]
    have far : Arith.le (Arith.abs (vecOf m.freq 1 - vecOf m.freq 0)) (CTOL : Fl rnd) = false := by
      show decide (|rnd ((vecOf m.freq 1).val - (vecOf m.freq 0).val)| ≤ rnd ((200.0 : ℚ) : ℝ)) = false
      have b0 := (round_half hr (show u ≤ 1 / 2 by linarith) (show (0 : ℝ) < ((200.0 : ℚ) : ℝ) by norm_num)).2
      generalize rnd ((200.0 : ℚ) : ℝ) = b at *
      norm_num at b0
      have b1 := (abs_le.1 (hr.2.2 ((vecOf m.freq 1).val - (vecOf m.freq 0).val))).2
      rw [abs_of_neg (by linarith)] at b1
      rw [decide_eq_false_iff_not, not_le]
      refine lt_of_lt_of_le ?_ (neg_le_abs _)
      have := hr.1
      nlinarith
    simp [coriolisAsym, show s.nvib = 2 from rfl, List.range_succ, corTest, far]
  refine ⟨out, m, hr, rfl, hout, hm, by simp [hcor], ?_, fun i hi => ?_, ?_⟩
  · push_cast
    linarith
  · interval_cases i <;> linarith
  · have key : (vecOf m.freq 0).val ^ 2 + (vecOf m.freq 1).val ^ 2 ≤ 3 * ((vecOf m.freq 0).val ^ 2 - (vecOf m.freq 1).val ^ 2) := by
      nlinarith
    have pos : 0 < (vecOf m.freq 0).val ^ 2 - (vecOf m.freq 1).val ^ 2 := by nlinarith
    intro x hx i j hi hj hij _
    interval_cases i <;> interval_cases j
    · exact absurd rfl hij
    · rw [abs_of_pos pos]; exact key
    · rw [abs_sub_comm, abs_of_pos pos, add_comm]; exact key
    · exact absurd rfl hij

end Verif
