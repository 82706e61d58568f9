import Verif.Lemmas.CoupledList
import Verif.Lemmas.Mix

/-!
# Resonant vibrations solve the vibrational Schrödinger equation to second order (C104)
-/

namespace Verif

open Finset Osc

variable {ι : Type}

theorem onlyListed_regular {R : Nat → Nat → Nat → Prop} {N : Nat} {w : Nat → ℝ} (hp : ∀ i < N, 0 < w i)
    (hw : OnlyListed R N w) : Regular R N w := by
  refine ⟨fun k l hk hl hn => ?_, fun k l m hk hl hm n1 n2 n3 => ?_⟩
  · have a := hp k hk
    have b := hp l hl
    have c := hw k k l hk hk hl hn
    exact ⟨b.ne', by linarith, fun e => c (by linarith)⟩
  · have hl' : l < N := by omega
    have a := hp k hk
    have b := hp l hl'
    have c := hp m hm
    exact ⟨by linarith, fun e => hw k m l hk hm hl' n3 (by linarith), fun e => hw k l m hk hl' hm n1 (by linarith),
      fun e => hw l m k hl' hm hk n2 (by linarith)⟩

theorem listed_rel {f1 : List Fermi1} {f2 : List Fermi2} (N : Nat)
    (hoff : ∀ a b c, Listed f1 f2 a b c → c ≠ a ∧ c ≠ b) : ResRel fun a b c : Fin N => Listed f1 f2 a b c := by
  refine ⟨fun a b c h => ?_, fun a b c h => ?_⟩
  · rcases h with ⟨e, h⟩ | h | h
    · exact .inl ⟨e.symm, e ▸ h⟩
    · exact .inr (.inr h)
    · exact .inr (.inl h)
  · obtain ⟨h1, h2⟩ := hoff a b c h
    exact ⟨fun e => h1 (congrArg _ e), fun e => h2 (congrArg _ e)⟩

/-- C104, levels: the anharmonic constants `x` computed when the resonances `f1`, `f2` are listed give the vibrational
levels for the Hamiltonian without the resonant terms: whenever `E₀ + ε E₁ + ε² E₂` is an energy of the
vibrational Hamiltonian without these terms, with a wave function which for `ε = 0` is the harmonic-oscillator state with
`n_i` quanta in mode `i`, and `G₀ + ε G₁ + ε² G₂` is the energy of the ground state (of the complete Hamiltonian), then
the difference is `Σ w_i n_i + Σ_{l ≤ k} x_kl ((n_k + ½) (n_l + ½) - ¼)`. -/
theorem c104_levels (N : Nat) (F4 : T4 ℝ) (w : Vec ℝ) (F3 zeta : T3 ℝ) (B : Vec ℝ) (modes : List Mode)
    (f1 : List Fermi1) (f2 : List Fermi2) (hoff : ∀ a b c, Listed f1 f2 a b c → c ≠ a ∧ c ≠ b)
    (hone : ∀ k l m, k < N → l < k → m < N → OneOfThree (Listed f1 f2) k l m)
    (h3 : Symm3 N F3) (h4 : Symm4 N F4)
    (hz : ∀ a k l, k < N → l < N → zeta k l a = -zeta l k a) (hp : ∀ i < N, 0 < w i)
    (hw : OnlyListed (Listed f1 f2) N w)
    (n : Nat → Nat) (E0 E1 E2 G0 G1 G2 : ℝ)
    (h : Deperturbed (Listed f1 f2) w F3 F4 zeta B (fun i : Fin N => n i) E0 E1 E2)
    (hg : VibEnergy w F3 F4 zeta B (fun _ : Fin N => 0) G0 G1 G2) :
    let x := (xcalc N F4 w F3 zeta B modes f1 f2).1
    E0 + E1 + E2 - (G0 + G1 + G2) = ∑ i ∈ range N, w i * n i +
      ∑ k ∈ range N, ∑ l ∈ range (k + 1), x k l * (((n k : ℝ) + 1 / 2) * ((n l : ℝ) + 1 / 2) - 1 / 4) := by
  intro x
  have hR := listed_rel N hoff
  have hreg := onlyListed_regular hp hw
  obtain ⟨a0, a1, a2⟩ := rest_unique hR h3 hp hw h
  obtain ⟨b0, b1, b2⟩ := ground_unique hR hp hw hg
  have hx : ∀ k l, l ≤ k → k < N → x k l = xSpec (Listed f1 f2) N w F3 F4 zeta B k l := by
    intro k l hl hk
    unfold xSpec
    rcases hl.eq_or_lt with rfl | hl
    · rw [if_pos rfl]
      exact c31_diagonal _ _ _ _ _ _ _ _ _ _ hk (fun m hm hn => hreg.1 l m hk hm hn)
    · rw [if_neg (by omega), max_eq_left hl.le, min_eq_right hl.le]
      exact (c31_offdiagonal _ _ _ _ _ _ _ _ _ _ _ hl hk (fun m hm => hone k l m hk hl hm)
        fun m hm n1 n2 n3 => hreg.2 k l m hk hl hm n1 n2 n3).1
  have key := restLevel_diff (B := B) hR h3 h4 hz hp n
  unfold restLevel at key
  rw [← a0, ← b0, ← a2, ← b2] at key
  rw [a1, b1, add_zero, add_zero, key, xForm, xForm, ← sum_sub_distrib]
  congr 1
  refine sum_congr rfl fun k hk => ?_
  rw [← sum_sub_distrib]
  refine sum_congr rfl fun l hl => ?_
  rw [hx k l (by have := mem_range.1 hl; omega) (mem_range.1 hk)]
  push_cast
  ring

theorem alone_fin {N : Nat} {w : Nat → ℝ} {n : Nat → Nat}
    (hn : ∀ m : Nat → Nat, ∑ i ∈ range N, w i * m i = ∑ i ∈ range N, w i * n i → ∀ i < N, m i = n i)
    (m : Fin N → Nat) (hm : m ≠ fun i : Fin N => n i) : level w (toInt m) ≠ level w (toInt fun i : Fin N => n i) := by
  intro e
  refine hm ?_
  let M : Nat → Nat := fun i => if h : i < N then m ⟨i, h⟩ else 0
  have hM : m = fun v : Fin N => M v := by funext v; simp [M]
  rw [hM, level_range w M, level_range w n] at e
  simp only [mul_add, sum_add_distrib] at e
  rw [hM]
  funext i
  exact hn M (by linarith) i i.2

/-- C104: the energies without the resonant terms exist if no other state of the harmonic oscillators has the same energy. -/
theorem c104_exists (N : Nat) (f1 : List Fermi1) (f2 : List Fermi2)
    (hoff : ∀ a b c, Listed f1 f2 a b c → c ≠ a ∧ c ≠ b) (w : Vec ℝ) (F3 zeta : T3 ℝ) (F4 : T4 ℝ) (B : Vec ℝ)
    (h3 : Symm3 N F3) (n : Nat → Nat)
    (hn : ∀ m : Nat → Nat, ∑ i ∈ range N, w i * m i = ∑ i ∈ range N, w i * n i → ∀ i < N, m i = n i) :
    ∃ E0 E1 E2, Deperturbed (Listed f1 f2) w F3 F4 zeta B (fun i : Fin N => n i) E0 E1 E2 :=
  rest_exists (listed_rel N hoff) _ h3 _ _ _ _ (alone_fin hn)

/-- C104: the effective Hamiltonian of two states exists if no other state has the energy of one of them. -/
theorem c104_effective_exists (N : Nat) (w : Vec ℝ) (F3 zeta : T3 ℝ) (F4 : T4 ℝ) (B : Vec ℝ) (a b : Nat → Nat)
    (hab : ∃ i < N, a i ≠ b i) (al : Alone N w a b) :
    ∃ h0 h1 h2, VibEffective w F3 F4 zeta B (fun i : Fin N => a i) (fun i : Fin N => b i) h0 h1 h2 := by
  refine eff_exists _ _ _ _ _ _ _ (fun e => ?_) (alone_level al)
  obtain ⟨i, hi, h⟩ := hab
  exact h (congrFun e ⟨i, hi⟩)

/-- What a run of an asymmetric top lists as resonances, if no mode resonates with its own overtone. -/
theorem run_listed (s : SpectroIn ℝ) (o : Oracles ℝ ι) (fc2 : Mat ℝ) (f3x : T3 ℝ) (f4x : T4 ℝ) (out : Output ℝ ι)
    (hr : s.rotor = .asymmTop) (hn : s.n3n = 3 * s.natom) (hv : s.nvib ≤ s.n3n) (h0 : 0 < s.nvib)
    (h3 : Symm3 s.n3n f3x) (h4 : Symm4 s.n3n f4x) (h : run s o (.quartic fc2 f3x f4x) = some out)
    (hself : ∀ i, (⟨i, i⟩ : Fermi1) ∉ out.resonances.fermi1) (a b c : Nat)
    (hl : Listed out.resonances.fermi1 out.resonances.fermi2 a b c) : c ≠ a ∧ c ≠ b := by
  obtain ⟨-, -, ⟨-, h2⟩, -⟩ := c80_resonances s o fc2 f3x f4x out hr hn hv h0 h3 h4 h
  rcases hl with ⟨rfl, hm⟩ | hm | hm
  · exact ⟨by rintro rfl; exact hself _ hm, by rintro rfl; exact hself _ hm⟩
  · obtain ⟨h1, h2, -⟩ := (h2 a b c).1 hm
    omega
  · obtain ⟨h1, h2, -⟩ := (h2 b a c).1 hm
    omega

/-- C104, fundamentals: let a run of an asymmetric top have positive frequencies, no mode listed as resonant with its own
overtone, and no exact resonance that is not listed. Then the fundamental reported for mode `i` is, to second order of
perturbation theory, the difference between the energy of the state with one quantum in mode `i` for the vibrational
Hamiltonian without the terms of the listed resonances and the energy of the ground state. -/
theorem c104_fundamentals (s : SpectroIn ℝ) (o : Oracles ℝ ι) (fc2 : Mat ℝ) (f3x : T3 ℝ) (f4x : T4 ℝ) (out : Output ℝ ι)
    (hr : s.rotor = .asymmTop) (hn : s.n3n = 3 * s.natom) (hv : s.nvib ≤ s.n3n) (h0 : 0 < s.nvib)
    (h3 : Symm3 s.n3n f3x) (h4 : Symm4 s.n3n f4x) (h : run s o (.quartic fc2 f3x f4x) = some out)
    (hself : ∀ i, (⟨i, i⟩ : Fermi1) ∉ out.resonances.fermi1) (hp : ∀ i < s.nvib, 0 < entryOf out.harms i)
    (hw : OnlyListed (Listed out.resonances.fermi1 out.resonances.fermi2) s.nvib (entryOf out.harms)) :
    let w := entryOf out.harms
    let φ := cubicField s.n3n s.axes f3x w out.lx
    let ψ := quarticField s.n3n s.axes f4x w out.lx
    let ζ := zetaField s.natom out.lxm
    ∀ G0 G1 G2, VibEnergy w φ ψ ζ s.rotcon (fun _ : Fin s.nvib => 0) G0 G1 G2 →
    ∀ i < s.nvib, ∀ E0 E1 E2, Deperturbed (Listed out.resonances.fermi1 out.resonances.fermi2) w φ ψ ζ s.rotcon
        (fun j : Fin s.nvib => if (j : Nat) = i then 1 else 0) E0 E1 E2 →
      out.funds[i]? = some (E0 + E1 + E2 - (G0 + G1 + G2)) := by
  intro w φ ψ ζ G0 G1 G2 hG i hi E0 E1 E2 hE
  have hR := listed_rel s.nvib (run_listed s o fc2 f3x f4x out hr hn hv h0 h3 h4 h hself)
  have S3 := cubicField_symm h3 s.axes w out.lx s.nvib
  have S4 := quarticField_symm h4 s.axes w out.lx s.nvib
  have AZ : ∀ a k l, k < s.nvib → l < s.nvib → ζ k l a = -ζ l k a := fun a k l _ _ => zetaField_anti _ _ _ _ _
  obtain ⟨b0, b1, b2⟩ := ground_unique hR hp hw hG
  obtain ⟨a0, a1, a2⟩ := rest_unique hR S3 hp hw
    (show Deperturbed _ w φ ψ ζ s.rotcon (fun j : Fin s.nvib => quanta i 1 j) E0 E1 E2 from hE)
  have key := restLevel_quanta (B := s.rotcon) hR S3 S4 AZ hp i hi
  unfold restLevel at key
  rw [← a0, ← b0, ← a2, ← b2] at key
  rw [(c80_fundamentals s o fc2 f3x f4x out hr hn hv h0 h3 h4 h (onlyListed_regular hp hw)).2 i hi, a1, b1, add_zero,
    add_zero, key]

theorem couplings_nodup (n : Nat) (f1 : List Fermi1) (f2 : List Fermi2) (k : Nat) : (couplings n f1 f2 k).Nodup := by
  unfold couplings
  rw [List.nodup_flatMap]
  have fst : ∀ i, ∀ p ∈ (if (⟨i, k⟩ : Fermi1) ∈ f1 ∧ ∀ f ∈ f1, f.i = i → f.j ≤ k then [(i, i)] else []) ++
      ((List.range n).filter fun j => i < j ∧ (⟨j, i, k⟩ : Fermi2) ∈ f2 ∧ ∀ f ∈ f2, f.i = j → f.j = i → f.k ≤ k).map
      fun j => (i, j), p.1 = i := by
    intro i p hp
    rcases List.mem_append.1 hp with hp | hp
    · split at hp
      · rw [List.mem_singleton.1 hp]
      · cases hp
    · obtain ⟨j, -, rfl⟩ := List.mem_map.1 hp
      rfl
  constructor
  · intro i _
    rw [List.nodup_append]
    refine ⟨?_, ?_, ?_⟩
    · split <;> simp
    · exact (List.nodup_range.filter _).map fun a b e => (Prod.mk.inj e).2
    · intro a ha b hb e
      subst e
      obtain ⟨j, hj, rfl⟩ := List.mem_map.1 hb
      have hlt : i < j := by simpa using (of_decide_eq_true (List.mem_filter.1 hj).2).1
      split at ha
      · have := (Prod.mk.inj (List.mem_singleton.1 ha)).2
        omega
      · cases ha
  · refine List.nodup_range.imp fun {a b} hab => ?_
    intro p hpa hpb
    exact hab ((fst a p hpa).symm.trans (fst b p hpb))

/-- C104, resonances: if, in addition, the fundamental of mode `k` and the overtone or combination `(i, j)` resonate with
each other and with nothing else, and no other state of the harmonic oscillators has the energy of either, then the
corrected fundamental reported for mode `k` is an eigenvalue of the effective Hamiltonian of these two states, to second
order of perturbation theory and for the complete vibrational Hamiltonian, less the energy of the ground state. It is the
lower eigenvalue if the uncoupled fundamental does not lie above the overtone or combination, and the upper one otherwise. -/
theorem c104_corrected (s : SpectroIn ℝ) (o : Oracles ℝ ι) (fc2 : Mat ℝ) (f3x : T3 ℝ) (f4x : T4 ℝ) (out : Output ℝ ι)
    (hr : s.rotor = .asymmTop) (hn : s.n3n = 3 * s.natom) (hv : s.nvib ≤ s.n3n) (h0 : 0 < s.nvib)
    (h3 : Symm3 s.n3n f3x) (h4 : Symm4 s.n3n f4x) (h : run s o (.quartic fc2 f3x f4x) = some out)
    (he : ∀ p v q, IsEigen2 p v q (o.eigen2 p v q))
    (hself : ∀ i, (⟨i, i⟩ : Fermi1) ∉ out.resonances.fermi1) (hp : ∀ i < s.nvib, 0 < entryOf out.harms i)
    (hw : OnlyListed (Listed out.resonances.fermi1 out.resonances.fermi2) s.nvib (entryOf out.harms))
    (i j k : Nat) (hij : i ≤ j) (hj : j < s.nvib) (hk : k < s.nvib)
    (iso : Isolated (Listed out.resonances.fermi1 out.resonances.fermi2) i j k)
    (al : Alone s.nvib (entryOf out.harms) (fun v => if v = k then 1 else 0)
      fun v => (if v = i then 1 else 0) + if v = j then 1 else 0) :
    let w := entryOf out.harms
    let φ := cubicField s.n3n s.axes f3x w out.lx
    let ψ := quarticField s.n3n s.axes f4x w out.lx
    let ζ := zetaField s.natom out.lxm
    ∀ G0 G1 G2, VibEnergy w φ ψ ζ s.rotcon (fun _ : Fin s.nvib => 0) G0 G1 G2 →
    ∀ m0 m1 m2, VibEffective w φ ψ ζ s.rotcon (fun v : Fin s.nvib => if (v : Nat) = k then 1 else 0)
        (fun v : Fin s.nvib => (if (v : Nat) = i then 1 else 0) + if (v : Nat) = j then 1 else 0) m0 m1 m2 →
    let H := fun a b => m0 a b + m1 a b + m2 a b
    ∃ c, out.corrs[k]? = some c ∧ IsLevel H (G0 + G1 + G2 + c) ∧
      ∀ e, IsLevel H e → if H 0 0 ≤ H 1 1 then G0 + G1 + G2 + c ≤ e else e ≤ G0 + G1 + G2 + c := by
  intro w φ ψ ζ G0 G1 G2 hG m0 m1 m2 hM H
  have hi : i < s.nvib := by omega
  have hoff := run_listed s o fc2 f3x f4x out hr hn hv h0 h3 h4 h hself
  have hR := listed_rel s.nvib hoff
  have hreg := onlyListed_regular hp hw
  have S3 := cubicField_symm h3 s.axes w out.lx s.nvib
  have S4 := quarticField_symm h4 s.axes w out.lx s.nvib
  have AZ : ∀ a k l, k < s.nvib → l < s.nvib → ζ k l a = -ζ l k a := fun a k l _ _ => zetaField_anti _ _ _ _ _
  obtain ⟨b0, b1, b2⟩ := ground_unique hR hp hw hG
  have hG' : G0 + G1 + G2 = restLevel (Listed out.resonances.fermi1 out.resonances.fermi2) w φ ψ ζ s.rotcon
      (fun _ : Fin s.nvib => 0) := by
    rw [b1, add_zero, restLevel, ← b2, ← b0]
  obtain ⟨e0, e1, e2⟩ := pair_value hR S3 hi hj hk iso al hM
  have hf := (c80_fundamentals s o fc2 f3x f4x out hr hn hv h0 h3 h4 h hreg).2
  have nu : ∀ l < s.nvib, entryOf out.funds l = restLevel (Listed out.resonances.fermi1 out.resonances.fermi2) w φ ψ ζ
      s.rotcon (fun v : Fin s.nvib => quanta l 1 v) - restLevel (Listed out.resonances.fermi1 out.resonances.fermi2) w φ ψ ζ
      s.rotcon (fun _ : Fin s.nvib => 0) := by
    intro l hl
    rw [restLevel_quanta hR S3 S4 AZ hp l hl, entryOf, List.getD_eq_getElem?_getD, hf l hl, Option.getD_some]
  -- the couplings of the mode
  obtain ⟨-, -, ⟨-, hf2⟩, -⟩ := c80_resonances s o fc2 f3x f4x out hr hn hv h0 h3 h4 h
  have hcp : couplings s.nvib out.resonances.fermi1 out.resonances.fermi2 k = [(i, j)] := by
    have hall : ∀ p, p ∈ couplings s.nvib out.resonances.fermi1 out.resonances.fermi2 k ↔ p = (i, j) := by
      rintro ⟨a, b⟩
      rw [mem_couplings]
      constructor
      · rintro ⟨-, -, h⟩
        have hab : a ≤ b := by rcases h with ⟨h, -⟩ | ⟨h, -⟩ <;> (dsimp only at h; omega)
        have hl : Listed out.resonances.fermi1 out.resonances.fermi2 a b k := by
          rcases h with ⟨h, hm, -⟩ | ⟨h, hm, -⟩
          · exact .inl ⟨h, hm⟩
          · exact .inr (.inr hm)
        rcases (iso.2 a b k hl).1 rfl with ⟨rfl, rfl⟩ | ⟨rfl, rfl⟩
        · rfl
        · rw [show a = b by omega]
      · intro e
        obtain ⟨rfl, rfl⟩ := Prod.mk.inj e
        refine ⟨hi, hj, ?_⟩
        rcases iso.1 with ⟨e, hm⟩ | hm | hm
        · refine .inl ⟨e, hm, fun f hf hfi => ?_⟩
          have := (iso.2 f.i f.i f.j (.inl ⟨rfl, hf⟩)).2.2.2 (.inl ⟨hfi, hfi.trans e⟩)
          exact this.le
        · have := (hf2 _ _ _).1 hm
          omega
        · refine .inr ⟨((hf2 _ _ _).1 hm).2.1, hm, fun f hf hfi hfj => ?_⟩
          have := (iso.2 f.j f.i f.k (.inr (.inr hf))).2.2.2 (.inl ⟨hfj, hfi⟩)
          exact this.le
    have nd := couplings_nodup s.nvib out.resonances.fermi1 out.resonances.fermi2 k
    generalize couplings s.nvib out.resonances.fermi1 out.resonances.fermi2 k = l at hall nd
    match l, hall, nd with
    | [], hall, _ => exact absurd ((hall (i, j)).2 rfl) (by simp)
    | [a], hall, _ => rw [(hall a).1 (by simp)]
    | a :: b :: l, hall, nd =>
      have ha := (hall a).1 (by simp)
      have hb := (hall b).1 (by simp)
      rw [ha, hb] at nd
      simp at nd
  have hc := c81_corrected s o fc2 f3x f4x out hr hn hv h0 h3 h4 h he hreg
  have hck : out.corrs[k]? = some (twoLevel (pairLevel (entryOf out.funds) (xSpec (Listed out.resonances.fermi1
      out.resonances.fermi2) s.nvib w φ ψ ζ s.rotcon) (i, j)) (entryOf out.funds k) (pairCoupling φ (i, j) k)).2 := by
    rw [hc, List.getElem?_map, List.getElem?_range hk, Option.map_some, pushed, hcp]
    rfl
  refine ⟨_, hck, twoLevel_level (h := H) ?_ ?_ e2⟩
  · rw [hG', nu k hk, add_sub_cancel]
    exact e0
  · have hd := restLevel_duo (B := s.rotcon) hR S3 S4 AZ hp i j hi hj
    rw [hG', pairLevel]
    refine Eq.trans e1 ?_
    dsimp only
    rw [← nu i hi, ← nu j hj] at hd
    split
    · rename_i e
      rw [if_pos e] at hd
      subst e
      linarith
    · rename_i e
      rw [if_neg e] at hd
      linarith

/-- The run of a molecule with unit masses and three modes with given frequencies, one along each axis. -/
theorem diag_run (W : Nat → ℝ) (hp : ∀ i, 0 ≤ W i) (hd : ∀ i j, i < j → W j ≤ W i) (f3x : T3 ℝ) (f4x : T4 ℝ) :
    ∃ (fc2 : Mat ℝ) (out : Output ℝ Nat), run exampleTop closeOracles (.quartic fc2 f3x f4x) = some out ∧
      (∀ i < 3, entryOf out.harms i = W i) ∧
      (Symm3 9 f3x → Symm4 9 f4x → ∀ i < 3, ∀ r < 9, columnEntry out.lx i r = if r = i then 1 else 0) := by
  obtain ⟨out, h⟩ := Option.isSome_iff_exists.1 (c74_completes exampleTop closeOracles (diagHessian W) f3x f4x rfl
    (show 0 < 3 by decide) (show 3 ≤ 9 by decide) (show 6 = 3 * (3 + 1) / 2 by decide) (show 2 < 4 by decide)
    (fun m => diagOracles_length 9 id m) (fun p v q => (exactOracles2_eigen2 p v q).1) le_rfl)
  obtain ⟨hraw, hcol⟩ := diag_raw exampleTop W id rfl rfl rfl (fun _ h => h) hp (fun i j hij _ => hd i j hij)
  have hmodes : ∀ m, runModes exampleTop closeOracles (diagHessian W) = some m →
      m.freq = (rawModes exampleTop closeOracles (diagHessian W)).1 ∧
      m.lx = makeLx 9 (fun _ => Arith.lit 1.0 / Arith.sqrt 1) (rawModes exampleTop closeOracles (diagHessian W)).2 := by
    intro m hm
    unfold runModes runAlign at hm
    simp only [Option.bind_eq_bind, Option.bind_eq_some_iff] at hm
    obtain ⟨p, hpp, irr, -, hm⟩ := hm
    simp only [show exampleTop.rotor.isSymTop = false from rfl, Bool.false_eq_true, if_false] at hpp
    obtain rfl := Option.some.inj hm
    obtain rfl := Option.some.inj hpp
    exact ⟨rfl, rfl⟩
  refine ⟨_, out, h, ?_, ?_⟩
  · obtain ⟨m, F4, hm, -, hfin⟩ := run_quartic h
    obtain ⟨r, x, hf, zc, v, v', -, -, hff, -, -, -, hha, -⟩ := finish_parts hfin
    unfold finishFunds at hff
    simp only [show exampleTop.rotor.isSymTop = false from rfl, Bool.false_eq_true, if_false] at hff
    obtain ⟨hs, hfirst, rfl⟩ := Option.map_eq_some_iff.1 hff
    have hhs : out.harms = m.freq.take 3 := by
      rw [hha]
      unfold firstFreqs at hfirst
      split at hfirst
      · cases hfirst
      · exact (Option.some.inj hfirst).symm
    intro i hi
    rw [hhs, (hmodes m hm).1, show (rawModes exampleTop closeOracles (diagHessian W)).1 = _ from hraw, entryOf]
    interval_cases i <;> simp [exampleTop, List.range_succ]
  · intro h3 h4 i hi r hr
    obtain ⟨m, F4, hm, -, -, hlx, -⟩ := asym_parts_modes rfl rfl (by decide) (by decide) h3 h4 h
    rw [columnEntry_toVec hlx i r (show i < 9 by omega) hr, (hmodes m hm).2, makeLx_apply _ _ _ _ _ hr (by omega),
      show (rawModes exampleTop closeOracles (diagHessian W)).2 r i = _ from hcol r i (show i < 9 by omega)]
    simp only [Arith.sqrt, lit_real, Real.sqrt_one, id]
    norm_num

/-- Frequencies for which twice the third is close to the first. -/
noncomputable def fermiFreqs : Nat → ℝ := fun i => if i = 0 then 1600 else if i = 1 then 1210 else if i = 2 then 750 else 0

theorem fermiFreqs_pos (i : Nat) (hi : i < 3) : 0 < fermiFreqs i := by
  unfold fermiFreqs
  interval_cases i <;> norm_num

theorem fermiFreqs_only (R : Nat → Nat → Nat → Prop) : OnlyListed R 3 fermiFreqs := by
  intro i j k hi hj hk _
  unfold fermiFreqs
  interval_cases i <;> interval_cases j <;> interval_cases k <;> norm_num

theorem fermiFreqs_sum {w : Nat → ℝ} (hw : ∀ i < 3, w i = fermiFreqs i) (m : Nat → Nat) :
    ∑ i ∈ range 3, w i * m i = ((1600 * m 0 + 1210 * m 1 + 750 * m 2 : Nat) : ℝ) := by
  rw [sum_congr rfl fun i hi => by rw [hw i (mem_range.1 hi)]]
  simp only [sum_range_succ, range_zero, sum_empty, fermiFreqs]
  push_cast
  norm_num

/-- The ground state, the states with one quantum and the overtone of the third mode are alone at their energies. -/
theorem fermiFreqs_alone {w : Nat → ℝ} (hw : ∀ i < 3, w i = fermiFreqs i) (n : Nat → Nat)
    (hn : n 0 + n 1 + n 2 ≤ 1 ∨ n 0 = 0 ∧ n 1 = 0 ∧ n 2 = 2) (m : Nat → Nat)
    (h : ∑ i ∈ range 3, w i * m i = ∑ i ∈ range 3, w i * n i) : ∀ i < 3, m i = n i := by
  rw [fermiFreqs_sum hw, fermiFreqs_sum hw] at h
  have h' : 1600 * m 0 + 1210 * m 1 + 750 * m 2 = 1600 * n 0 + 1210 * n 1 + 750 * n 2 := by exact_mod_cast h
  have : m 0 = n 0 ∧ m 1 = n 1 ∧ m 2 = n 2 := by
    obtain ⟨a, b, c⟩ : n 0 ≤ 1 ∧ n 1 ≤ 1 ∧ n 2 ≤ 2 := by omega
    generalize m 0 = m0, m 1 = m1, m 2 = m2, n 0 = n0, n 1 = n1, n 2 = n2 at *
    have hs : 1600 * m0 + 1210 * m1 + 750 * m2 ≤ 1600 := by omega
    have b0 : m0 ≤ 1 := by omega
    have b1 : m1 ≤ 1 := by omega
    have b2 : m2 ≤ 2 := by omega
    interval_cases m0 <;> interval_cases m1 <;> interval_cases m2 <;> omega
  intro i hi
  interval_cases i
  · exact this.1
  · exact this.2.1
  · exact this.2.2

theorem fermi_listed (a b c : Nat) : Listed [⟨2, 0⟩] [] a b c ↔ a = 2 ∧ b = 2 ∧ c = 0 := by
  simp only [Listed, List.mem_singleton, Fermi1.mk.injEq, List.not_mem_nil, or_false]
  omega

/-- The hypotheses of `c104_levels` and `c104_exists` are met with a Fermi resonance and constants that are not zero. -/
example (n : Nat → Nat) (hn : n 0 + n 1 + n 2 ≤ 1 ∨ n 0 = 0 ∧ n 1 = 0 ∧ n 2 = 2) :
    ∃ (F3 zeta : T3 ℝ) (F4 : T4 ℝ) (E0 E1 E2 G0 G1 G2 : ℝ),
    (∀ a b c, Listed [⟨2, 0⟩] [] a b c → c ≠ a ∧ c ≠ b) ∧
    (∀ k l m, k < 3 → l < k → m < 3 → OneOfThree (Listed [⟨2, 0⟩] []) k l m) ∧ Symm3 3 F3 ∧ Symm4 3 F4 ∧
    (∀ a k l, k < 3 → l < 3 → zeta k l a = -zeta l k a) ∧ (∀ i < 3, 0 < fermiFreqs i) ∧
    OnlyListed (Listed [⟨2, 0⟩] []) 3 fermiFreqs ∧
    Deperturbed (Listed [⟨2, 0⟩] []) fermiFreqs F3 F4 zeta (fun _ => 10) (fun i : Fin 3 => n i) E0 E1 E2 ∧
    VibEnergy fermiFreqs F3 F4 zeta (fun _ => 10) (fun _ : Fin 3 => 0) G0 G1 G2 ∧
    F3 0 1 2 = 20 ∧ zeta 1 0 2 = 1 / 2 := by
  have hoff : ∀ a b c, Listed [⟨2, 0⟩] [] a b c → c ≠ a ∧ c ≠ b := by
    intro a b c h
    rw [fermi_listed] at h
    omega
  obtain ⟨E0, E1, E2, hE⟩ := c104_exists 3 [⟨2, 0⟩] [] hoff fermiFreqs (fun _ _ _ => 20) (fun k l _ => ((k : ℝ) - l) / 2)
    (fun _ _ _ _ => 5) (fun _ => 10) (fun _ _ _ _ _ _ => ⟨rfl, rfl⟩) n (fermiFreqs_alone (fun _ _ => rfl) n hn)
  obtain ⟨G0, G1, G2, hG⟩ := c102_exists 3 fermiFreqs (fun _ _ _ => 20) (fun k l _ => ((k : ℝ) - l) / 2)
    (fun _ _ _ _ => 5) (fun _ => 10) (fun _ => 0) (fermiFreqs_alone (fun _ _ => rfl) _ (.inl (by norm_num)))
  refine ⟨_, _, _, E0, E1, E2, G0, G1, G2, hoff, ?_, fun _ _ _ _ _ _ => ⟨rfl, rfl⟩,
    fun _ _ _ _ _ _ _ _ => ⟨rfl, rfl, rfl⟩, fun a k l _ _ => by ring, fermiFreqs_pos, fermiFreqs_only _, hE, hG, rfl,
    by norm_num⟩
  intro k l m _ _ _
  simp only [OneOfThree, fermi_listed]
  omega

/-- The hypotheses of `c104_fundamentals`, `c104_effective_exists` and `c104_corrected` are met by a molecule in which the overtone of the
third mode resonates with the first mode, and the energies and the effective Hamiltonian they speak of exist. -/
example : ∃ (fc2 : Mat ℝ) (f3x : T3 ℝ) (f4x : T4 ℝ) (out : Output ℝ Nat), Symm3 exampleTop.n3n f3x ∧ Symm4 exampleTop.n3n f4x ∧
    run exampleTop closeOracles (.quartic fc2 f3x f4x) = some out ∧
    (∀ p v q, IsEigen2 p v q (closeOracles.eigen2 p v q)) ∧
    out.resonances.fermi1 = [⟨2, 0⟩] ∧ out.resonances.fermi2 = [] ∧
    (∀ i, (⟨i, i⟩ : Fermi1) ∉ out.resonances.fermi1) ∧ (∀ i < exampleTop.nvib, 0 < entryOf out.harms i) ∧
    OnlyListed (Listed out.resonances.fermi1 out.resonances.fermi2) exampleTop.nvib (entryOf out.harms) ∧
    Isolated (Listed out.resonances.fermi1 out.resonances.fermi2) 2 2 0 ∧
    Alone exampleTop.nvib (entryOf out.harms) (fun v => if v = 0 then 1 else 0)
      (fun v => (if v = 2 then 1 else 0) + if v = 2 then 1 else 0) ∧
    let w := entryOf out.harms
    let φ := cubicField exampleTop.n3n exampleTop.axes f3x w out.lx
    let ψ := quarticField exampleTop.n3n exampleTop.axes f4x w out.lx
    let ζ := zetaField exampleTop.natom out.lxm
    (∃ G0 G1 G2, VibEnergy w φ ψ ζ exampleTop.rotcon (fun _ : Fin exampleTop.nvib => 0) G0 G1 G2) ∧
    (∀ i < exampleTop.nvib, ∃ E0 E1 E2, Deperturbed (Listed out.resonances.fermi1 out.resonances.fermi2) w φ ψ ζ
      exampleTop.rotcon (fun j : Fin exampleTop.nvib => if (j : Nat) = i then 1 else 0) E0 E1 E2) ∧
    ∃ m0 m1 m2, VibEffective w φ ψ ζ exampleTop.rotcon (fun v : Fin exampleTop.nvib => if (v : Nat) = 0 then 1 else 0)
        (fun v : Fin exampleTop.nvib => (if (v : Nat) = 2 then 1 else 0) + if (v : Nat) = 2 then 1 else 0) m0 m1 m2 := by
  let c := 20 * Real.sqrt (750 * 750 * 1600) / cubicUnit
  obtain ⟨fc2, out, h, hw, hl⟩ := diag_run fermiFreqs (fun i => by unfold fermiFreqs; split_ifs <;> norm_num)
    (fun i j hij => by unfold fermiFreqs; split_ifs <;> first | omega | norm_num) (fun _ _ _ => c) (fun _ _ _ _ => 1)
  have h3 : Symm3 exampleTop.n3n (fun _ _ _ => c) := fun _ _ _ _ _ _ => ⟨rfl, rfl⟩
  have h4 : Symm4 exampleTop.n3n (fun _ _ _ _ => (1 : ℝ)) := fun _ _ _ _ _ _ _ _ => ⟨rfl, rfl, rfl⟩
  have hl := hl h3 h4
  obtain ⟨-, ⟨n1, h1⟩, ⟨-, h2⟩, -⟩ := c80_resonances _ _ _ _ _ _ rfl rfl (by decide) (by decide) h3 h4 h
  have hφ : cubicField exampleTop.n3n exampleTop.axes (fun _ _ _ => c) (entryOf out.harms) out.lx 2 2 0 = 20 := by
    have hone : ∀ i < 3, ∑ r ∈ range 9, columnEntry out.lx i r = 1 := by
      intro i hi
      rw [sum_congr rfl fun r hr => hl i hi r (mem_range.1 hr), sum_ite_eq', if_pos (mem_range.2 (by omega))]
    have hf : form3 9 (fun _ _ _ => c) (columnEntry out.lx 2) (columnEntry out.lx 2) (columnEntry out.lx 0) = c := by
      unfold form3
      simp only [← mul_sum, ← sum_mul]
      rw [hone 2 (by norm_num), hone 0 (by norm_num)]
      ring
    unfold cubicField
    rw [show exampleTop.axes = idAxes from rfl, applyAxes_id, applyAxes_id, show exampleTop.n3n = 9 from rfl, hf,
      hw 2 (by norm_num), hw 0 (by norm_num), show fermiFreqs 2 = 750 by norm_num [fermiFreqs],
      show fermiFreqs 0 = 1600 by norm_num [fermiFreqs]]
    have h1 := cubicUnit_pos
    have h2 : 0 < Real.sqrt (750 * 750 * 1600) := Real.sqrt_pos.2 (by positivity)
    simp only [c]
    field_simp
  have e1 : out.resonances.fermi1 = [⟨2, 0⟩] := by
    have hall : ∀ f, f ∈ out.resonances.fermi1 ↔ f = ⟨2, 0⟩ := by
      rintro ⟨i, j⟩
      rw [h1]
      constructor
      · rintro ⟨hi, hj, hd, -⟩
        have hi : i < 3 := hi
        have hj : j < 3 := hj
        rw [hw i hi, hw j hj, fermiFreqs, fermiFreqs] at hd
        interval_cases i <;> interval_cases j <;> first | rfl | (norm_num [abs_le] at hd; done)
      · intro e
        obtain ⟨rfl, rfl⟩ := Fermi1.mk.inj e
        refine ⟨show 2 < 3 by decide, show 0 < 3 by decide, ?_, ?_⟩
        · rw [hw 2 (by norm_num), hw 0 (by norm_num)]
          norm_num [fermiFreqs, abs_le]
        · rw [hφ]
          norm_num
    generalize out.resonances.fermi1 = l at hall n1
    match l, hall, n1 with
    | [], hall, _ => exact absurd ((hall ⟨2, 0⟩).2 rfl) (by simp)
    | [a], hall, _ => rw [(hall a).1 (by simp)]
    | a :: b :: l, hall, nd =>
      rw [(hall a).1 (by simp), (hall b).1 (by simp)] at nd
      simp at nd
  have e2 : out.resonances.fermi2 = [] := by
    rw [List.eq_nil_iff_forall_not_mem]
    rintro ⟨i, j, k⟩ hm
    obtain ⟨hk, hj, hi, -, hd⟩ := (h2 i j k).1 hm
    have hi : i < 3 := hi
    obtain ⟨rfl, rfl, rfl⟩ : i = 2 ∧ j = 1 ∧ k = 0 := by omega
    rw [hw 2 hi, hw 1 (by omega), hw 0 (by omega)] at hd
    norm_num [fermiFreqs] at hd
  have al : Alone exampleTop.nvib (entryOf out.harms) (fun v => if v = 0 then 1 else 0)
      (fun v => (if v = 2 then 1 else 0) + if v = 2 then 1 else 0) := by
    rintro m ⟨i, hi, ha⟩ ⟨j, hj, hb⟩
    exact ⟨fun e => ha (fermiFreqs_alone hw _ (.inl (by norm_num)) m e i hi),
      fun e => hb (fermiFreqs_alone hw _ (.inr (by norm_num)) m e j hj)⟩
  have hself : ∀ i, (⟨i, i⟩ : Fermi1) ∉ out.resonances.fermi1 := by
    intro i hm
    rw [e1, List.mem_singleton, Fermi1.mk.injEq] at hm
    omega
  refine ⟨fc2, _, _, out, h3, h4, h, fun p v q => exactOracles2_eigen2 p v q, e1, e2, hself, fun i hi => ?_,
    fun i j k hi hj hk hn => ?_, ?_, al, ?_, fun i hi => ?_, ?_⟩
  · rw [hw i hi]
    exact fermiFreqs_pos i hi
  · rw [hw i hi, hw j hj, hw k hk]
    exact fermiFreqs_only _ i j k hi hj hk hn
  · rw [e1, e2]
    refine ⟨(fermi_listed _ _ _).2 ⟨rfl, rfl, rfl⟩, fun c d e hl => ?_⟩
    obtain ⟨rfl, rfl, rfl⟩ := (fermi_listed _ _ _).1 hl
    decide
  · generalize cubicField exampleTop.n3n exampleTop.axes _ _ _ = φ
    generalize quarticField exampleTop.n3n exampleTop.axes _ _ _ = ψ
    generalize zetaField exampleTop.natom _ = ζ
    exact c102_exists 3 (entryOf out.harms) φ ζ ψ exampleTop.rotcon (fun _ => 0)
      (fermiFreqs_alone hw _ (.inl (by norm_num)))
  · have hS := cubicField_symm h3 exampleTop.axes (entryOf out.harms) out.lx 3
    have hoff := run_listed _ _ _ _ _ _ rfl rfl (by decide) (by decide) h3 h4 h hself
    generalize cubicField exampleTop.n3n exampleTop.axes _ _ _ = φ at hS
    generalize quarticField exampleTop.n3n exampleTop.axes _ _ _ = ψ
    generalize zetaField exampleTop.natom _ = ζ
    refine c104_exists 3 _ _ hoff (entryOf out.harms) φ ζ ψ exampleTop.rotcon
      hS (fun j => if j = i then 1 else 0) (fermiFreqs_alone hw _ (.inl ?_))
    have hi : i < 3 := hi
    interval_cases i <;> norm_num
  · generalize cubicField exampleTop.n3n exampleTop.axes _ _ _ = φ
    generalize quarticField exampleTop.n3n exampleTop.axes _ _ _ = ψ
    generalize zetaField exampleTop.natom _ = ζ
    exact c104_effective_exists 3 (entryOf out.harms) φ ζ ψ exampleTop.rotcon (fun v => if v = 0 then 1 else 0)
      (fun v => (if v = 2 then 1 else 0) + if v = 2 then 1 else 0) ⟨0, by norm_num, by norm_num⟩ al

end Verif
