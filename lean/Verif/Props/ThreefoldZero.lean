import Verif.Lemmas.ThreefoldZero
import Verif.Props.ThreefoldRun
import Verif.Props.XcalsE0
import Verif.Props.Energy

/-!
# C109: the zero-point energy of symmetric tops from the Schrödinger equation
-/

namespace Verif

open Finset Osc

theorem unordered_twice {X : Type} (f : X → X → ℝ) (hf : ∀ a b, f a b = f b a) (L : List X) :
    2 * unorderedSum f L = (L.map fun a => (L.map fun b => f a b).sum).sum + (L.map fun a => f a a).sum := by
  induction L with
  | nil => simp [unorderedSum]
  | cons a L ih =>
    have e : (L.map fun b => f a b + (L.map fun c => f b c).sum).sum =
        (L.map fun b => f a b).sum + (L.map fun b => (L.map fun c => f b c).sum).sum := List.sum_map_add
    simp only [unorderedSum, List.map_cons, List.sum_cons, hf _ a, e]
    linarith

theorem unordered_fin {X : Type} [DecidableEq X] (f : X → X → ℝ) (hf : ∀ a b, f a b = f b a) {L : List X} (hL : L.Nodup) :
    unorderedSum f L = ∑ a : L.toFinset, f a a + 1 / 2 * D2 fun a b : L.toFinset => f a b := by
  have e := unordered_twice f hf L
  simp only [lsum_fin hL] at e
  rw [sum2_sort fun a b : L.toFinset => f a b] at e
  linarith

theorem map_getD {X : Type} (L : List X) (d : X) : (List.range L.length).map (fun p => L.getD p d) = L := by
  refine List.ext_getElem (by simp) fun i h1 h2 => ?_
  simp [List.getElem?_eq_getElem h2]

/-- The energy of the ground state as the code computes it. -/
theorem ground_level {one : List Nat} {two : List (Nat × Nat)} (d1 : one.Nodup) (d2 : two.Nodup) {w : Vec ℝ} {x g : Mat ℝ} {e0 : ℝ}
    (hx : ∀ i j, x i j = x j i) (hg : ∀ i j, g i j = g j i) {n : Nat} (h1 : one.length ≤ n) (h2 : two.length ≤ n) {zpt : ℝ}
    (h : stateEnergy one two w x (some g) e0 (List.replicate n 0) (List.replicate n (0, 0)) = some zpt) :
    zpt = e0 + (1 / 2 * ∑ k : one.toFinset, w k + ∑ t : two.toFinset, w t.1.1)
      + 1 / 4 * ∑ k : one.toFinset, x k k + 1 / 8 * D2 (fun k l : one.toFinset => x k l)
      + 1 / 2 * ∑ k : one.toFinset, ∑ t : two.toFinset, x k t.1.1
      + ∑ t : two.toFinset, x t.1.1 t.1.1 + 1 / 2 * D2 (fun t u : two.toFinset => x t.1.1 u.1.1) := by
  have e := stateEnergy_real one two w x (some g) e0 (.i12st (List.replicate n 0) (List.replicate n (0, 0)))
    (fun i _ j _ => hx i j) (fun i _ j _ G hG => by rw [← Option.some.inj hG]; exact hg i j)
    (by simpa [State.v1] using h1) (by simpa [State.v2] using h2) (.inr rfl)
  simp only [State.v1, State.v2] at e
  rw [h, Option.some.injEq] at e
  have occ : State.occ (.i12st (List.replicate n 0) (List.replicate n (0, 0))) = noQuanta := by
    have r1 : ∀ p, (List.replicate n 0).getD p 0 = 0 := fun p => by
      rw [List.getD_eq_getElem?_getD, List.getElem?_replicate]; split <;> rfl
    have r2 : ∀ p, (List.replicate n (0, 0)).getD p (0, 0) = (0, 0) := fun p => by
      rw [List.getD_eq_getElem?_getD, List.getElem?_replicate]; split <;> rfl
    funext ⟨a, p⟩
    match a with
    | 0 => rfl
    | 1 => exact congrArg (·, 0) (r1 p)
    | 2 => exact r2 p
    | _ + 3 => rfl
  rw [e, occ, levelEnergy]
  dsimp only [noQuanta]
  have u1 : ∀ f : Nat → ℝ, ((List.range one.length).map fun p => f (oscIdx one two (1, p))).sum = ∑ k : one.toFinset, f k := fun f => by
    rw [← lsum_fin d1]
    conv_rhs => rw [← map_getD one 0, List.map_map]
    rfl
  have u2 : ∀ f : Nat → ℝ, ((List.range two.length).map fun p => f (oscIdx one two (2, p))).sum = ∑ t : two.toFinset, f t.1.1 := fun f => by
    rw [← lsum_fst d2]
    conv_rhs => rw [← map_getD two (0, 0), List.map_map, List.map_map]
    rfl
  have v1 : unorderedSum (fun a b => x (oscIdx one two (1, a)) (oscIdx one two (1, b)) * (1 / 2) * (1 / 2)) (List.range one.length) =
      unorderedSum (fun a b => x a b * (1 / 2) * (1 / 2)) one := by
    conv_rhs => rw [← map_getD one 0, unordered_map]
    rfl
  have v2 : unorderedSum (fun a b => x (oscIdx one two (2, a)) (oscIdx one two (2, b)) * 1 * 1) (List.range two.length) =
      unorderedSum (fun a b : Nat × Nat => x a.1 b.1) two := by
    conv_rhs => rw [← map_getD two (0, 0), unordered_map]
    simp only [mul_one]
    rfl
  have z : ∀ L : List (Nat × Nat), unorderedSum (fun _ _ => (0 : ℝ)) L = 0 := by
    intro L
    induction L with
    | nil => rfl
    | cons a L ih => simp [unorderedSum, ih]
  have c3 : ((2 : Nat) : ℝ) / 2 = 1 := by norm_num
  simp only [oscillators, unordered_append, List.map_append, List.sum_append, unordered_map, List.map_map, Function.comp_def,
    Nat.cast_zero, mul_zero, z, zero_add, c3, Nat.cast_one]
  rw [u1 fun k => w k * (1 / 2), u2 fun k => w k * 1, v1, v2, unordered_fin _ (fun a b => by rw [hx]) d1,
    unordered_fin _ (fun a b => hx _ _) d2, u1 fun k => ((List.range two.length).map fun p => x k (oscIdx one two (2, p)) * (1 / 2) * 1).sum]
  simp only [fun k : one.toFinset => u2 fun l => x k l * (1 / 2) * 1, mul_sum]
  have q : 1 / 2 * D2 (fun a b : one.toFinset => x a b * (1 / 2) * (1 / 2)) = 1 / 8 * D2 fun a b : one.toFinset => x a b := by
    rw [D2_congr (g := fun a b : one.toFinset => 1 / 4 * x a b) fun _ _ _ => by ring, D2_smul]; ring
  have r1 : ∀ k : one.toFinset, w k * (1 / 2) = 1 / 2 * w k := fun _ => by ring
  have r2 : ∀ k l : Nat, x k l * (1 / 2) * 1 = 1 / 2 * x k l := fun _ _ => by ring
  have r3 : ∀ k : Nat, x k k * (1 / 2) * (1 / 2) = 1 / 4 * x k k := fun _ => by ring
  rw [q]
  simp only [r1, r2, r3, mul_one]
  ring

section
variable {rotor : Rotor} {N : Nat} {F4 : T4 ℝ} {w : Vec ℝ} {F3 zeta : T3 ℝ} {B : Vec ℝ} {modes : List Mode} {wila x g : Mat ℝ}
  {e0 : ℝ} {s p : Nat → ℝ} {ax : Nat}

/-- The zero-point energy but for the zero-point constant. -/
theorem threefold_zero (hx : xcals rotor F4 w F3 zeta B [] [] modes wila = some (x, g, e0))
    (hax : CouplingAxis (rotor = .linear) ((degPairs modes).map (·.2)) wila ax)
    (hT : Threefold N (nonDeg modes) (degPairs modes) s p ax w F3 F4 zeta B)
    (h3 : Symm3 N F3) (h4 : Symm4 N F4) (hz : ∀ a k l, k < N → l < N → zeta k l a = -zeta l k a)
    (hp : ∀ i < N, 0 < w i) (hw : NoResonance N w)
    (hc : ∀ k ∈ nonDeg modes, p k = 1 ∨ ∀ t ∈ degPairs modes, ∀ u ∈ degPairs modes, F3 k t.1 u.2 = 0)
    {n : Nat} (h1 : (nonDeg modes).length ≤ n) (h2 : (degPairs modes).length ≤ n) {zpt : ℝ}
    (hzp : stateEnergy (nonDeg modes) (degPairs modes) w x (some g) e0 (List.replicate n 0) (List.replicate n (0, 0)) = some zpt)
    {G0 G1 G2 : ℝ} (hG : VibEnergy w F3 F4 zeta B (fun _ : Fin N => 0) G0 G1 G2) :
    zpt - (e0 - (e0Spec noneOut (nonDeg modes) w F3 F4 + e2Spec noneOut (nonDeg modes) ((degPairs modes).map (·.1)) w F3 F4 +
      e3Spec noneOut (nonDeg modes) ((degPairs modes).map (·.1)) w F3)) = G0 + G1 + G2 +
      1 / 2 * (∑ k ∈ range N, ∑ l ∈ range k, ∑ a ∈ range 3, B a * zeta k l a ^ 2 -
        ((degPairs modes).map fun t => ∑ a ∈ range 3, B a * zeta t.1 t.2 a ^ 2).sum) := by
  have hc' : ∀ k ∈ nonDeg modes, ∀ t ∈ degPairs modes, ∀ u ∈ degPairs modes, F3 k t.1 u.2 = 0 := by
    intro k hk t ht u hu
    rcases hc k hk with h | h
    · have e := hT.flip3 (hT.lt1 hk) (hT.ltf ht) (hT.lts hu)
      rw [h, (hT.components t ht).1, (hT.components u hu).2] at e
      linarith
    · exact h t ht u hu
  obtain ⟨x11, x12, -, x2o⟩ := threefold_constants hx hax hT h3 h4 hz hp hw hc
  have d := hT.distinct
  have hd : (modeNumbers modes).Nodup := (modeNumbers_perm modes).nodup_iff.2 d
  have lt : ∀ m ∈ modeNumbers modes, m < N := fun m hm =>
    List.mem_range.1 (hT.modes.mem_iff.1 ((modeNumbers_perm modes).mem_iff.1 hm))
  have sym := c30_symmetric_top _ _ _ _ _ _ _ _ _ _ _ _ _ hx
  have L1 : (fun a _ c => (⟨a, c⟩ : Fermi1) ∈ ([] : List Fermi1)) = noneOut := by funext a b c; simp
  have d2 := List.Nodup.of_map _ d.d2
  have E := ground_level d.d1 d2 (fun i j => (sym i j).1) (fun i j => (sym i j).2) h1 h2 hzp
  have m1 : ∀ k : (nonDeg modes).toFinset, (k : Nat) ∈ nonDeg modes := fun k => List.mem_toFinset.1 k.2
  have m2 : ∀ t : (degPairs modes).toFinset, (t : Nat × Nat) ∈ degPairs modes := fun t => List.mem_toFinset.1 t.2
  have y1 : ∑ k : (nonDeg modes).toFinset, x k k = ∑ k : (nonDeg modes).toFinset, xkkSpecL noneOut (nonDeg modes) w F3 F4 k :=
    sum_congr rfl fun k _ => by rw [x11 k (m1 k) k (m1 k), hT.x_kk (m1 k)]
  have y2 : D2 (fun k l : (nonDeg modes).toFinset => x k l) =
      D2 fun k l : (nonDeg modes).toFinset => xnnSpec noneOut (nonDeg modes) w F3 F4 zeta B k l :=
    D2_congr fun k l hkl => by
      rw [x11 k (m1 k) l (m1 l), hT.x_one_one h3 h4 hz (m1 k) (m1 l) fun e => hkl (Subtype.ext e)]
  have y3 : ∑ k : (nonDeg modes).toFinset, ∑ t : (degPairs modes).toFinset, x k t.1.1 =
      ∑ k : (nonDeg modes).toFinset, ∑ t : (degPairs modes).toFinset,
        xndSpec noneOut (nonDeg modes) ((degPairs modes).map (·.1)) w F3 F4 zeta B k t.1.1 :=
    sum_congr rfl fun k _ => sum_congr rfl fun t _ => by
      rw [(x12 k (m1 k) t (m2 t)).1, (hT.x_one_two h3 h4 hz (m1 k) (m2 t) fun u hu => hc' k (m1 k) t (m2 t) u hu).1]
  have y4 : ∑ t : (degPairs modes).toFinset, x t.1.1 t.1.1 =
      ∑ t : (degPairs modes).toFinset, xkkSpecL noneOut (nonDeg modes ++ (degPairs modes).map (·.1)) w F3 F4 t.1.1 :=
    sum_congr rfl fun t _ => by
      have := (c33_diagonal rotor F4 w F3 zeta B [] [] modes wila x g e0 hx hd t.1.1 (by simp) (fun l hl _ => by
        have a := hp l (lt l hl)
        have b := hp _ (hT.ltf (m2 t))
        exact ⟨a.ne', by positivity, fun c => (hw t.1.1 t.1.1 l (hT.ltf (m2 t)) (hT.ltf (m2 t)) (lt l hl)).2 (by linarith)⟩)).2
        t.1.2 (mem_degPairs.1 (m2 t))
      rw [L1] at this
      exact this
  have y5 : D2 (fun t u : (degPairs modes).toFinset => x t.1.1 u.1.1) =
      D2 fun t u : (degPairs modes).toFinset => xddSpec noneOut (nonDeg modes) ((degPairs modes).map (·.1)) w F3 F4 zeta B ax
        t.1.1 u.1.1 u.1.2 :=
    D2_congr fun t u htu => by
      have ne : t.1 ≠ u.1 := fun e => htu (Subtype.ext e)
      rw [(x2o t (m2 t) u (m2 u) ne).1, (hT.x_two_two h3 h4 hz (m2 t) (m2 u) ne fun m hm => hc' m hm t (m2 t) u (m2 u)).1]
  obtain ⟨g0, g1, g2⟩ := vib_unique hw.fin hG
  have Z := hT.zero h3 h4 hz hp hc'
  have g0' : G0 = 1 / 2 * ∑ k : (nonDeg modes).toFinset, w k + ∑ t : (degPairs modes).toFinset, w t.1.1 := by
    rw [(vib_formula (n := fun _ => 0) h3 h4 hz hp hw hG).1, hT.fsum, mul_sum]
    refine congrArg₂ (· + ·) (sum_congr rfl fun k _ => by push_cast; ring) (sum_congr rfl fun t _ => ?_)
    rw [hT.frequencies t (m2 t)]
    push_cast
    ring
  rw [lsum_fin d2]
  rw [y1, y2, y3, y4, y5] at E
  rw [E, ← g0', g1, g2]
  unfold corio at Z
  linear_combination Z

/-- The terms the code leaves out depend only on the fields at the modes. -/
theorem e3Missing_congr {P : Prop} {R : Nat → Nat → Nat → Prop} {L1 L2 : List Nat} {w w' : Nat → ℝ} {F3 F3' : T3 ℝ} {N : Nat}
    (m1 : ∀ k ∈ L1, k < N) (m2 : ∀ k ∈ L2, k < N) (hw : ∀ i < N, w i = w' i)
    (h3 : ∀ i j k, i < N → j < N → k < N → F3 i j k = F3' i j k) :
    e3Missing P R L1 L2 w F3 = e3Missing P R L1 L2 w' F3' := by
  have f2 : ∀ (k : Nat), ∀ l ∈ L2.filter (fun l => l < k), l < N := fun k l hl => m2 l (List.mem_of_mem_filter hl)
  have fr : ∀ k l m, k < N → l < N → m < N → gFracs R w k l m = gFracs R w' k l m := fun k l m hk hl hm => by
    unfold gFracs; rw [hw k hk, hw l hl, hw m hm]
  have A : ∀ L : List Nat, (∀ k ∈ L, k < N) →
      (L.map fun k => ((L2.filter fun l => l < k).map fun l => (L1.map fun m =>
        F3 k l m ^ 2 / 16 * gFracs R w k l m).sum).sum).sum =
      (L.map fun k => ((L2.filter fun l => l < k).map fun l => (L1.map fun m =>
        F3' k l m ^ 2 / 16 * gFracs R w' k l m).sum).sum).sum := fun L hL =>
    congrArg (List.sum (α := ℝ)) (List.map_congr_left fun k hk => congrArg (List.sum (α := ℝ)) (List.map_congr_left fun l hl =>
      congrArg (List.sum (α := ℝ)) (List.map_congr_left fun m hm => by
        rw [h3 k l m (hL k hk) (f2 k l hl) (m1 m hm), fr k l m (hL k hk) (f2 k l hl) (m1 m hm)])))
  have C : (L2.map fun k => ((L2.filter fun l => l < k).map fun l => ((L2.filter fun m => m < l).map fun m =>
        F3 k l m ^ 2 / 8 * gFracs R w k l m).sum).sum).sum =
      (L2.map fun k => ((L2.filter fun l => l < k).map fun l => ((L2.filter fun m => m < l).map fun m =>
        F3' k l m ^ 2 / 8 * gFracs R w' k l m).sum).sum).sum :=
    congrArg (List.sum (α := ℝ)) (List.map_congr_left fun k hk => congrArg (List.sum (α := ℝ)) (List.map_congr_left fun l hl =>
      congrArg (List.sum (α := ℝ)) (List.map_congr_left fun m hm => by
        rw [h3 k l m (m2 k hk) (f2 k l hl) (f2 l m hm), fr k l m (m2 k hk) (f2 k l hl) (f2 l m hm)])))
  unfold e3Missing
  split_ifs
  swap
  · exact congrArg₂ _ (A _ fun k hk => m2 k (List.mem_of_mem_dropLast hk)) C
  unfold e3Spec
  refine congrArg₂ _ (congrArg₂ _ ?_ (A _ m2)) C
  refine congrArg (List.sum (α := ℝ)) (List.map_congr_left fun k hk => congrArg (List.sum (α := ℝ)) (List.map_congr_left fun l hl => ?_))
  have hk := m2 k hk
  have hl := m2 l (List.mem_of_mem_filter hl)
  rw [h3 k k l hk hk hl, hw k hk, hw l hl]

/-- The code leaves nothing out for at most two degenerate modes, one for linear molecules. -/
theorem e3Missing_small {P : Prop} (R : Nat → Nat → Nat → Prop) (L1 : List Nat) {d : List Nat} (w : Nat → ℝ) (F3 : T3 ℝ)
    (hlen : d.length ≤ 2) (hP : P → d.length ≤ 1) (hs : d.Pairwise (· < ·)) : e3Missing P R L1 d w F3 = 0 := by
  by_cases h : P
  · rw [eq_true h]
    unfold e3Missing
    rw [if_pos trivial]
    match d, hP h with
    | [], _ => simp [e3Spec]
    | [a], _ => simp [e3Spec]
  · rw [eq_false h]
    exact e3Missing_two R L1 d w F3 hlen hs

/-- C109, exactly: let no Fermi resonances be listed for a symmetric top or linear molecule whose frequencies, force constants and
Coriolis constants have a threefold axis, and a perpendicular half-turn or a mirror plane through the axis (`Threefold`), let the
axis `ax` of the half-turn, or the one perpendicular to the mirror plane, be the one the code takes for the Coriolis couplings of
degenerate modes, and let every non-degenerate mode be even (`p k = 1`) or not couple the first component of a degenerate mode
with a second one. Then the energy the code computes for the ground state is, to second order of perturbation theory for the
vibrational Hamiltonian, the energy of the ground state but for `½ Σ_a B_a Σ_{l < k} ζ_kl²`, where the two components of a
degenerate mode do not count as a pair `k`, `l`, and for the terms of `e3Missing`. -/
theorem c109_exact (hx : xcals rotor F4 w F3 zeta B [] [] modes wila = some (x, g, e0))
    (hax : CouplingAxis (rotor = .linear) ((degPairs modes).map (·.2)) wila ax)
    (hT : Threefold N (nonDeg modes) (degPairs modes) s p ax w F3 F4 zeta B)
    (h3 : Symm3 N F3) (h4 : Symm4 N F4) (hz : ∀ a k l, k < N → l < N → zeta k l a = -zeta l k a)
    (hp : ∀ i < N, 0 < w i) (hw : NoResonance N w)
    (hc : ∀ k ∈ nonDeg modes, p k = 1 ∨ ∀ t ∈ degPairs modes, ∀ u ∈ degPairs modes, F3 k t.1 u.2 = 0)
    (hs : ((degPairs modes).map (·.1)).Pairwise (· < ·))
    (n : Nat) (h1 : (nonDeg modes).length ≤ n) (h2 : (degPairs modes).length ≤ n) (zpt : ℝ)
    (hzp : stateEnergy (nonDeg modes) (degPairs modes) w x (some g) e0 (List.replicate n 0) (List.replicate n (0, 0)) = some zpt)
    (G0 G1 G2 : ℝ) (hG : VibEnergy w F3 F4 zeta B (fun _ : Fin N => 0) G0 G1 G2) :
    zpt = G0 + G1 + G2 + 1 / 2 * (∑ k ∈ range N, ∑ l ∈ range k, ∑ a ∈ range 3, B a * zeta k l a ^ 2 -
      ((degPairs modes).map fun t => ∑ a ∈ range 3, B a * zeta t.1 t.2 a ^ 2).sum) -
      e3Missing (rotor = .linear) noneOut (nonDeg modes) ((degPairs modes).map (·.1)) w F3 := by
  have key := threefold_zero hx hax hT h3 h4 hz hp hw hc h1 h2 hzp hG
  have L0 : Listed [] [] = noneOut := by funext a b c; simp [Listed]
  have m1 : ∀ k ∈ nonDeg modes, k < N := fun k hk => hT.lt1 hk
  have m2 : ∀ k ∈ (degPairs modes).map (·.1), k < N := fun k hk => by
    obtain ⟨t, ht, rfl⟩ := List.mem_map.1 hk; exact hT.ltf ht
  have dens : ∀ k l m, k < N → l < N → m < N → DensOk w k l m := fun k l m hk hl hm =>
    ⟨(hw k l m hk hl hm).1, fun c => (hw k m l hk hm hl).2 (by linarith), (hw k l m hk hl hm).2,
      fun c => (hw l m k hl hm hk).2 (by linarith)⟩
  have two : ∀ k l, k < N → l < N → 2 * w k + w l ≠ 0 ∧ 2 * w k - w l ≠ 0 := fun k l hk hl =>
    ⟨fun c => (hw k k l hk hk hl).1 (by linarith), fun c => (hw k k l hk hk hl).2 (by linarith)⟩
  have e := c34_exact rotor F4 w F3 zeta B [] [] modes wila x g e0 hx hs (fun a _ b _ c _ => by simp [Listed])
    ⟨fun a ha b hb _ => two a b (m1 a ha) (m1 b hb), fun a ha b hb c hc _ _ => dens a b c (m1 a ha) (m1 b hb) (m1 c hc)⟩
    (fun k hk l hl => two k l (m2 k hk) (m1 l hl)) (fun k hk l hl _ => ⟨(hp l (m2 l hl)).ne', two k l (m2 k hk) (m2 l hl)⟩)
    (fun k hk l hl _ m hm => dens k l m (m2 k hk) (m2 l hl) (m1 m hm))
  rw [L0] at e
  linear_combination key + e

/-- C109: let no Fermi resonances be listed for a symmetric top with at most two degenerate modes, or a linear molecule with at
most one, whose frequencies, force constants and Coriolis constants have a threefold axis, and a perpendicular half-turn or a
mirror plane through the axis (`Threefold`), let the axis `ax` of the half-turn, or the one perpendicular to the mirror plane, be
the one the code takes for the Coriolis couplings of degenerate modes, and let every non-degenerate mode be even (`p k = 1`) or
not couple the first component of a degenerate mode with a second one. Then the energy the code computes for the ground state is,
to second order of perturbation theory for the vibrational Hamiltonian, the energy of the ground state but for
`½ Σ_a B_a Σ_{l < k} ζ_kl²`, where the two components of a degenerate mode do not count as a pair `k`, `l`.
Missing: linear molecules with two degenerate modes, see `c109_linear_violated`, and molecules with three, see `c109_violated`. -/
theorem c109_zero_point_partial (hx : xcals rotor F4 w F3 zeta B [] [] modes wila = some (x, g, e0))
    (hax : CouplingAxis (rotor = .linear) ((degPairs modes).map (·.2)) wila ax)
    (hT : Threefold N (nonDeg modes) (degPairs modes) s p ax w F3 F4 zeta B)
    (h3 : Symm3 N F3) (h4 : Symm4 N F4) (hz : ∀ a k l, k < N → l < N → zeta k l a = -zeta l k a)
    (hp : ∀ i < N, 0 < w i) (hw : NoResonance N w)
    (hc : ∀ k ∈ nonDeg modes, p k = 1 ∨ ∀ t ∈ degPairs modes, ∀ u ∈ degPairs modes, F3 k t.1 u.2 = 0)
    (hlen : (degPairs modes).length ≤ 2) (hlin : rotor = .linear → (degPairs modes).length ≤ 1)
    (hs : ((degPairs modes).map (·.1)).Pairwise (· < ·))
    (n : Nat) (h1 : (nonDeg modes).length ≤ n) (h2 : (degPairs modes).length ≤ n) (zpt : ℝ)
    (hzp : stateEnergy (nonDeg modes) (degPairs modes) w x (some g) e0 (List.replicate n 0) (List.replicate n (0, 0)) = some zpt)
    (G0 G1 G2 : ℝ) (hG : VibEnergy w F3 F4 zeta B (fun _ : Fin N => 0) G0 G1 G2) :
    zpt = G0 + G1 + G2 + 1 / 2 * (∑ k ∈ range N, ∑ l ∈ range k, ∑ a ∈ range 3, B a * zeta k l a ^ 2 -
      ((degPairs modes).map fun t => ∑ a ∈ range 3, B a * zeta t.1 t.2 a ^ 2).sum) := by
  rw [c109_exact hx hax hT h3 h4 hz hp hw hc hs n h1 h2 zpt hzp G0 G1 G2 hG,
    e3Missing_small _ _ _ _ (by simpa using hlen) (by simpa using hlin) hs, sub_zero]

end

/-! ### The list of degenerate modes -/

section
variable {α : Type} [Arith α]

theorem incPairs_sorted (n : Nat) : (incPairs n).Pairwise fun p q => p.1 < q.1 ∨ p.1 = q.1 := by
  unfold incPairs
  rw [List.pairwise_flatMap]
  refine ⟨fun a _ => ?_, ?_⟩
  · rw [List.pairwise_map]
    exact List.pairwise_of_forall fun _ _ => .inr rfl
  · refine List.pairwise_lt_range.imp fun {a b} hab x hx y hy => ?_
    obtain ⟨_, _, rfl⟩ := List.mem_map.1 hx
    obtain ⟨_, _, rfl⟩ := List.mem_map.1 hy
    exact .inl hab

theorem degPairs_degModes {rotor : Rotor} (hr : rotor.isSymTop = true) (n : Nat) (w : Vec α) :
    degPairs (degModes rotor n w) = degDoubles n w := by
  rw [degModes, if_pos hr]
  unfold degPairs
  simp [List.filterMap_append, List.filterMap_map]

theorem degPairs_sorted {rotor : Rotor} (hr : rotor.isSymTop = true) (n : Nat) (w : Vec α)
    (h : ((degPairs (degModes rotor n w)).map (·.1)).Nodup) : ((degPairs (degModes rotor n w)).map (·.1)).Pairwise (· < ·) := by
  rw [degPairs_degModes hr] at h ⊢
  have s : (degDoubles n w).Pairwise fun p q => p.1 < q.1 ∨ p.1 = q.1 := (incPairs_sorted n).sublist List.filter_sublist
  rw [List.Nodup, List.pairwise_map] at h
  rw [List.pairwise_map]
  exact (s.and h).imp fun h => h.1.resolve_right h.2

/-- If every mode is non-degenerate or a component of a doubly degenerate mode, there are no triply degenerate ones. -/
theorem members_of_cover {rotor : Rotor} (hr : rotor.isSymTop = true) (n : Nat) (w : Vec α)
    (h : (nonDeg (degModes rotor n w) ++ (degPairs (degModes rotor n w)).map (·.1) ++
      (degPairs (degModes rotor n w)).map (·.2)).Perm (List.range n)) : ((degModes rotor n w).flatMap Mode.members).Nodup := by
  have no3 : ∀ p, p ∉ degTriples n w := by
    intro p hp
    have l := degTriples_lt hp
    have t : inTriples (degTriples n w) p.1 = true := inTriples_iff.2 ⟨p, hp, by simp⟩
    have m := h.mem_iff.2 (List.mem_range.2 (show p.1 < n by omega))
    rw [degPairs_degModes hr] at m
    simp only [List.mem_append, List.mem_map, mem_nonDeg] at m
    rcases m with (m | ⟨q, hq, e⟩) | ⟨q, hq, e⟩
    · rcases (mem_degModes_sym hr).1 m with ⟨_, _, e⟩ | ⟨_, _, e⟩ | ⟨i, _, t', _, e⟩
      · cases e
      · cases e
      · simp only [Mode.i1.injEq] at e
        rw [← e, t] at t'
        cases t'
    · have := (degDoubles_not_triple hq).1
      rw [e, t] at this
      cases this
    · have := (degDoubles_not_triple hq).2
      rw [e, t] at this
      cases this
  have e : (degModes rotor n w).flatMap Mode.members = modeNumbers (degModes rotor n w) := by
    unfold modeNumbers
    refine List.flatMap_congr fun m hm => ?_
    rcases (mem_degModes_sym hr).1 hm with ⟨p, h, -⟩ | ⟨p, -, rfl⟩ | ⟨i, -, -, -, rfl⟩
    · exact absurd h (no3 p)
    · rfl
    · rfl
  rw [e]
  exact (modeNumbers_perm _).nodup_iff.2 (h.nodup_iff.2 List.nodup_range)

end

/-- C109 for whole runs, exactly: the reported zero-point energy of a symmetric top or linear molecule is the energy of the ground
state, to second order of perturbation theory, but for `½ Σ_a B_a Σ_{l < k} ζ_kl²`, where the two components of a degenerate mode
do not count as a pair, and for the terms of `e3Missing`. The fields are those of the molecule (see `c105_run_partial`). -/
theorem c109_run_exact {ι : Type} (sp : SpectroIn ℝ) (o : Oracles ℝ ι) (fc2 : Mat ℝ) (f3x : T3 ℝ) (f4x : T4 ℝ)
    (out hout : Output ℝ ι) (hr : sp.rotor.isSymTop = true) (hn : sp.n3n = 3 * sp.natom) (hv : sp.nvib ≤ sp.n3n)
    (h0 : 0 < sp.nvib) (h3 : Symm3 sp.n3n f3x) (h4 : Symm4 sp.n3n f4x)
    (h : run sp o (.quartic fc2 f3x f4x) = some out) (hh : run sp o (.harmonic fc2) = some hout)
    (hnf : out.resonances.fermi1 = [] ∧ out.resonances.fermi2 = [])
    (hp : ∀ i < sp.nvib, 0 < entryOf hout.harms i) (hw : NoResonance sp.nvib (entryOf hout.harms)) :
    let w := entryOf hout.harms
    let φ := cubicField sp.n3n sp.axes f3x w out.lx
    let ψ := quarticField sp.n3n sp.axes f4x w out.lx
    let ζ := zetaField sp.natom out.lxm
    let one := nonDeg out.resonances.modes
    let two := degPairs out.resonances.modes
    ∀ (s p : Nat → ℝ) (ax : Nat), Threefold sp.nvib one two s p ax w φ ψ ζ sp.rotcon →
    CouplingAxis (sp.rotor = .linear) (two.map (·.2))
      (fun j c => inertiaField sp.natom sp.pos sp.weights out.lxm j (if c = 3 then 0 else 1) 2) ax →
    (∀ k ∈ one, p k = 1 ∨ ∀ t ∈ two, ∀ u ∈ two, φ k t.1 u.2 = 0) →
    ∀ G0 G1 G2, VibEnergy w φ ψ ζ sp.rotcon (fun _ : Fin sp.nvib => 0) G0 G1 G2 →
    out.zpt = G0 + G1 + G2 + 1 / 2 * (∑ k ∈ range sp.nvib, ∑ l ∈ range k, ∑ a ∈ range 3, sp.rotcon a * ζ k l a ^ 2 -
      (two.map fun t => ∑ a ∈ range 3, sp.rotcon a * ζ t.1 t.2 a ^ 2).sum) -
      e3Missing (sp.rotor = .linear) noneOut one (two.map (·.1)) w φ := by
  intro w φ ψ ζ one two s p ax hT hax hc G0 G1 G2 hG
  obtain ⟨m, F4, hm, hF, hfin⟩ := run_quartic h
  obtain ⟨m', hm', -, -, -, hfr⟩ := harmonic_facts hh
  obtain rfl : m = m' := Option.some.inj (hm.symm.trans hm')
  obtain ⟨r, x, hf, zc, v, v', hrs, hx, -, hzc, hvec, hvec', -, -, -, hzp, -, -, e1, e2, -, rfl⟩ := finish_parts hfin
  obtain ⟨t, ht, hmd, hst, hfu, hov, hco, -, -⟩ := restst_parts hrs
  rw [← e1] at hvec
  rw [← e2] at hvec'
  obtain ⟨c3, c4, cz, ca⟩ := field_parts hn hv h0 h3 h4 hF hvec hvec' hfr
  rw [finishX, hr, if_pos rfl, hnf.1, hnf.2, Option.map_eq_some_iff] at hx
  obtain ⟨⟨x', g, e0⟩, hx, rfl⟩ := hx
  have c3' := fun i j k hi hj hk => (c3 i j k hi hj hk).symm
  have hT' := hT.congr hfr c3 c4 cz
  have hax' : CouplingAxis (sp.rotor = .linear) ((degPairs out.resonances.modes).map (·.2))
      (wilsonA sp.nvib sp.natom sp.pos m.lxm sp.weights) ax := by
    have mem : ∀ j ∈ two.map (·.2), j < sp.nvib := fun j hj => List.mem_range.1 (hT.modes.mem_iff.1
      (List.mem_append_right _ hj))
    have a3 : ∀ j ∈ two.map (·.2), wilsonA sp.nvib sp.natom sp.pos m.lxm sp.weights j 3 =
        inertiaField sp.natom sp.pos sp.weights out.lxm j 0 2 := fun j hj => ca j 0 2 (mem j hj) (by omega) (by omega)
    have a4 : ∀ j ∈ two.map (·.2), wilsonA sp.nvib sp.natom sp.pos m.lxm sp.weights j 4 =
        inertiaField sp.natom sp.pos sp.weights out.lxm j 1 2 := fun j hj => ca j 1 2 (mem j hj) (by omega) (by omega)
    refine ⟨hax.1, hax.2.trans (and_congr_right fun _ => and_congr (forall₂_congr fun j hj => ?_)
      (exists_congr fun j => and_congr_right fun hj => ?_))⟩
    · rw [a3 j hj]; rfl
    · rw [a4 j hj]; rfl
  have S3 : Symm3 sp.nvib (f3Of (force3 sp.n3n (rot3rd sp.n3n sp.natom sp.axes f3x) m.lx sp.nvib (vecOf m.freq))) := by
    have S := cubicField_symm h3 sp.axes w out.lx sp.nvib
    intro a b c ha hb hc
    rw [c3 a b c ha hb hc, c3 b a c hb ha hc, c3 a c b ha hc hb]
    exact S a b c ha hb hc
  have S4 : Symm4 sp.nvib (f4Of F4) := by
    have S := quarticField_symm h4 sp.axes w out.lx sp.nvib
    intro a b c d ha hb hc hd
    rw [c4 a b c d ha hb hc hd, c4 b a c d hb ha hc hd, c4 a c b d ha hc hb hd, c4 a b d c ha hb hd hc]
    exact S a b c d ha hb hc hd
  have pos : ∀ i < sp.nvib, 0 < vecOf m.freq i := fun i hi => by rw [hfr i hi]; exact hp i hi
  have nr : NoResonance sp.nvib (vecOf m.freq) := fun i j k hi hj hk => by
    rw [hfr i hi, hfr j hj, hfr k hk]; exact hw i j k hi hj hk
  have odd : ∀ k ∈ nonDeg out.resonances.modes, p k = 1 ∨ ∀ t ∈ degPairs out.resonances.modes,
      ∀ u ∈ degPairs out.resonances.modes,
      f3Of (force3 sp.n3n (rot3rd sp.n3n sp.natom sp.axes f3x) m.lx sp.nvib (vecOf m.freq)) k t.1 u.2 = 0 :=
    fun k hk => (hc k hk).imp_right fun e t ht u hu => by
      rw [c3 _ _ _ (hT.lt1 hk) (hT.ltf ht) (hT.lts hu)]; exact e t ht u hu
  have AZ : ∀ a k l, k < sp.nvib → l < sp.nvib → makeZmat sp.nvib sp.natom m.lxm k l a = -makeZmat sp.nvib sp.natom m.lxm l k a := by
    intro a k l hk hl
    by_cases ha : a < 3
    · exact (c15_antisymmetric _ _ _ _ _ _ hk hl ha).1
    · unfold makeZmat
      have l0 : (Arith.lit 0 : ℝ) = 0 := by rw [lit_real]; norm_num
      simp only [if_neg (show a ≠ 0 by omega), if_neg (show a ≠ 1 by omega), if_neg (show a ≠ 2 by omega), l0, ite_self, neg_zero]
  have cover := hT.modes
  have len : (nonDeg out.resonances.modes ++ (degPairs out.resonances.modes).map (·.1) ++
    (degPairs out.resonances.modes).map (·.2)).length = (List.range sp.nvib).length := cover.length_eq
  simp only [List.length_append, List.length_map, List.length_range] at len
  obtain ⟨zpt, corrs⟩ := zc
  have gr := c67_ground _ _ _ _ _ _ _ _ _ _ t ht hst hfu hov hco (by
      rw [hmd]
      refine members_of_cover hr _ _ ?_
      rw [← hmd]
      exact cover) (by simp [hnf.1]) (by simp [hnf.2]) (List.length_replicate ..) _ _ hzc
  rw [part_nonDeg, part_degPairs] at gr
  have key := c109_exact hx hax' hT' S3 S4 AZ pos nr odd (by
      have d : ((degPairs out.resonances.modes).map (·.1)).Nodup := hT.distinct.d2
      rw [hmd] at d ⊢
      exact degPairs_sorted hr _ _ d) _ (by omega) (by omega) _ gr G0 G1 G2 (vibEnergy_congr hG hfr c3 c4 cz)
  rw [hzp]
  refine key.trans ?_
  have cz' : ∀ k l a, k < sp.nvib → l < sp.nvib → a ∈ range 3 → makeZmat sp.nvib sp.natom m.lxm k l a = ζ k l a :=
    fun k l a hk hl ha => cz k l a hk hl (mem_range.1 ha)
  refine congrArg₂ _ ?_ (e3Missing_congr (fun k hk => hT.lt1 hk)
    (fun k hk => by obtain ⟨t, ht, rfl⟩ := List.mem_map.1 hk; exact hT.ltf ht) hfr c3)
  congr 3
  · refine sum_congr rfl fun k hk => sum_congr rfl fun l hl => sum_congr rfl fun a ha => ?_
    rw [mem_range] at hk hl
    rw [cz' k l a hk (by omega) ha]
  · refine congrArg (List.sum (α := ℝ)) (List.map_congr_left fun t ht => sum_congr rfl fun a ha => ?_)
    rw [cz' _ _ a (hT.ltf ht) (hT.lts ht) ha]

/-- C109 for whole runs: for a symmetric top with at most two degenerate modes, or a linear molecule with at most one, the
reported zero-point energy is the energy of the ground state, to second order of perturbation theory, but for
`½ Σ_a B_a Σ_{l < k} ζ_kl²`, where the two components of a degenerate mode do not count as a pair. The fields are those of the
molecule (see `c105_run_partial`).
Missing: linear molecules with two degenerate modes, see `c109_linear_violated`, and molecules with three, see `c109_violated`. -/
theorem c109_run_partial {ι : Type} (sp : SpectroIn ℝ) (o : Oracles ℝ ι) (fc2 : Mat ℝ) (f3x : T3 ℝ) (f4x : T4 ℝ)
    (out hout : Output ℝ ι) (hr : sp.rotor.isSymTop = true) (hn : sp.n3n = 3 * sp.natom) (hv : sp.nvib ≤ sp.n3n)
    (h0 : 0 < sp.nvib) (h3 : Symm3 sp.n3n f3x) (h4 : Symm4 sp.n3n f4x)
    (h : run sp o (.quartic fc2 f3x f4x) = some out) (hh : run sp o (.harmonic fc2) = some hout)
    (hnf : out.resonances.fermi1 = [] ∧ out.resonances.fermi2 = [])
    (hp : ∀ i < sp.nvib, 0 < entryOf hout.harms i) (hw : NoResonance sp.nvib (entryOf hout.harms)) :
    let w := entryOf hout.harms
    let φ := cubicField sp.n3n sp.axes f3x w out.lx
    let ψ := quarticField sp.n3n sp.axes f4x w out.lx
    let ζ := zetaField sp.natom out.lxm
    let one := nonDeg out.resonances.modes
    let two := degPairs out.resonances.modes
    ∀ (s p : Nat → ℝ) (ax : Nat), Threefold sp.nvib one two s p ax w φ ψ ζ sp.rotcon →
    CouplingAxis (sp.rotor = .linear) (two.map (·.2))
      (fun j c => inertiaField sp.natom sp.pos sp.weights out.lxm j (if c = 3 then 0 else 1) 2) ax →
    (∀ k ∈ one, p k = 1 ∨ ∀ t ∈ two, ∀ u ∈ two, φ k t.1 u.2 = 0) →
    two.length ≤ 2 → (sp.rotor = .linear → two.length ≤ 1) →
    ∀ G0 G1 G2, VibEnergy w φ ψ ζ sp.rotcon (fun _ : Fin sp.nvib => 0) G0 G1 G2 →
    out.zpt = G0 + G1 + G2 + 1 / 2 * (∑ k ∈ range sp.nvib, ∑ l ∈ range k, ∑ a ∈ range 3, sp.rotcon a * ζ k l a ^ 2 -
      (two.map fun t => ∑ a ∈ range 3, sp.rotcon a * ζ t.1 t.2 a ^ 2).sum) := by
  intro w φ ψ ζ one two s p ax hT hax hc hlen hlin G0 G1 G2 hG
  have hs : (two.map (·.1)).Pairwise (· < ·) := by
    obtain ⟨m, F4, hm, hF, hfin⟩ := run_quartic h
    obtain ⟨r, x, hf, zc, v, v', hrs, -, -, -, -, -, -, -, -, -, -, -, -, -, -, rfl⟩ := finish_parts hfin
    obtain ⟨t, ht, hmd, -⟩ := restst_parts hrs
    have d : ((degPairs out.resonances.modes).map (·.1)).Nodup := hT.distinct.d2
    change ((degPairs out.resonances.modes).map (·.1)).Pairwise (· < ·)
    rw [hmd] at d ⊢
    exact degPairs_sorted hr _ _ d
  rw [c109_run_exact sp o fc2 f3x f4x out hout hr hn hv h0 h3 h4 h hh hnf hp hw s p ax hT hax hc G0 G1 G2 hG,
    e3Missing_small _ _ _ _ (by simpa using hlen) (by simpa using hlin) hs, sub_zero]

/-! ### What is missing -/

theorem even_facts : (∀ i < 7, 0 < evenFreq i) ∧ NoResonance 7 evenFreq ∧
    ∀ N, N = 5 ∨ N = 7 → ∃ G0 G1 G2, VibEnergy evenFreq evenCubic (fun _ _ _ _ => 0) (fun _ _ _ => 0) (fun _ => 1)
      (fun _ : Fin N => 0) G0 G1 G2 := by
  have hp : ∀ i, 0 < evenFreq i := fun i => by unfold evenFreq; split_ifs <;> norm_num
  refine ⟨fun i _ => hp i, ?_, fun N hN => ?_⟩
  · intro i j k _ _ _
    unfold evenFreq
    split_ifs <;> norm_num
  · refine c102_exists N evenFreq _ _ _ _ (fun _ => 0) fun m hm i hi => ?_
    simp only [Nat.cast_zero, mul_zero, sum_const_zero] at hm
    have z := (sum_eq_zero_iff_of_nonneg fun i _ => mul_nonneg (hp i).le (Nat.cast_nonneg (m i))).1 hm i (mem_range.2 hi)
    rcases mul_eq_zero.1 z with h | h
    · exact absurd h (hp i).ne'
    · exact_mod_cast h

/-- If the code leaves the coupling of the modes out, the zero-point energy is wrong. -/
theorem even_violated {rotor : Rotor} {N : Nat} {modes : List Mode} (h : N = 5 ∧ modes = [.i1 0, .i2 1 2, .i2 3 4] ∨
      N = 7 ∧ modes = [.i1 0, .i2 1 2, .i2 3 4, .i2 5 6]) {x g : Mat ℝ} {e0 : ℝ}
    (hx : xcals rotor (fun _ _ _ _ => 0) evenFreq evenCubic (fun _ _ _ => 0) (fun _ => 1) [] [] modes (fun _ _ => 0) =
      some (x, g, e0)) (he : e0 = 0) :
    CouplingAxis (rotor = .linear) ((degPairs modes).map (·.2)) (fun _ _ => 0) 1 ∧
    Threefold N (nonDeg modes) (degPairs modes) (fun _ => 1) evenSign 1 evenFreq evenCubic (fun _ _ _ _ => 0)
      (fun _ _ _ => 0) (fun _ => 1) ∧
    Symm3 N evenCubic ∧ (∀ i < N, 0 < evenFreq i) ∧ NoResonance N evenFreq ∧ (∀ k ∈ nonDeg modes, evenSign k = 1) ∧
    ((degPairs modes).map (·.1)).Pairwise (· < ·) ∧
    ∃ zpt G0 G1 G2, stateEnergy (nonDeg modes) (degPairs modes) evenFreq x (some g) e0 (List.replicate N 0)
      (List.replicate N (0, 0)) = some zpt ∧
    VibEnergy evenFreq evenCubic (fun _ _ _ _ => 0) (fun _ _ _ => 0) (fun _ => 1) (fun _ : Fin N => 0) G0 G1 G2 ∧
    zpt ≠ G0 + G1 + G2 := by
  have hN : N = 5 ∨ N = 7 := h.imp And.left And.left
  have h7 : N ≤ 7 := by omega
  obtain ⟨hp, hw, hG⟩ := even_facts
  obtain ⟨G0, G1, G2, hG⟩ := hG N hN
  have n1 : nonDeg modes = [0] := by rcases h with ⟨-, rfl⟩ | ⟨-, rfl⟩ <;> rfl
  have hT : Threefold N (nonDeg modes) (degPairs modes) (fun _ => 1) evenSign 1 evenFreq evenCubic (fun _ _ _ _ => 0)
      (fun _ _ _ => 0) (fun _ => 1) := by
    rw [n1]
    refine even_threefold (h.imp ?_ ?_) <;> (rintro ⟨rfl, rfl⟩; exact ⟨rfl, rfl⟩)
  have hax : CouplingAxis (rotor = .linear) ((degPairs modes).map (·.2)) (fun _ _ => 0) 1 := by
    refine ⟨le_rfl, iff_of_false (by decide) fun h' => ?_⟩
    have := h'.2.1 2 (by rcases h with ⟨-, rfl⟩ | ⟨-, rfl⟩ <;> simp)
    norm_num at this
  have hp' : ∀ i < N, 0 < evenFreq i := fun i hi => hp i (by omega)
  have hw' : NoResonance N evenFreq := fun i j k hi hj hk => hw i j k (by omega) (by omega) (by omega)
  have s1 : ∀ k ∈ nonDeg modes, evenSign k = 1 := by rw [n1]; simp [evenSign]
  have sym := c30_symmetric_top _ _ _ _ _ _ _ _ _ _ _ _ _ hx
  have le1 : (nonDeg modes).length ≤ N := by rw [n1]; simp; omega
  have le2 : (degPairs modes).length ≤ N := by rcases h with ⟨rfl, rfl⟩ | ⟨rfl, rfl⟩ <;> simp
  have hz := stateEnergy_real (nonDeg modes) (degPairs modes) evenFreq x (some g) e0
    (.i12st (List.replicate N 0) (List.replicate N (0, 0)))
    (fun i _ j _ => (sym i j).1) (fun i _ j _ G hG => by rw [← Option.some.inj hG]; exact (sym i j).2)
    (by simpa [State.v1] using le1) (by simpa [State.v2] using le2) (.inr rfl)
  simp only [State.v1, State.v2] at hz
  have key := threefold_zero hx hax hT (evenCubic_symm N) (fun _ _ _ _ _ _ _ _ => ⟨rfl, rfl, rfl⟩) (by simp) hp' hw'
    (fun k hk => .inl (s1 k hk)) le1 le2 hz hG
  refine ⟨hax, hT, evenCubic_symm N, hp', hw', s1, by rcases h with ⟨-, rfl⟩ | ⟨-, rfl⟩ <;> simp, _, G0, G1, G2, hz, hG, ?_⟩
  intro c
  rw [c, he] at key
  have v : e0Spec noneOut (nonDeg modes) evenFreq evenCubic (fun _ _ _ _ => 0) +
      e2Spec noneOut (nonDeg modes) ((degPairs modes).map (·.1)) evenFreq evenCubic (fun _ _ _ _ => 0) +
      e3Spec noneOut (nonDeg modes) ((degPairs modes).map (·.1)) evenFreq evenCubic = 0 := by
    simp at key
    linarith
  revert v
  rcases h with ⟨-, rfl⟩ | ⟨-, rfl⟩ <;>
  · simp [e0Spec, e2Spec, e3Spec, gFracs, nonDeg, degPairs, fracUnless, noneOut, evenCubic, evenFreq, xklSpec]
    norm_num

/-- C109 is violated: a linear molecule with two degenerate modes, like acetylene, which are coupled with a non-degenerate one. The
code leaves the terms of pairs of degenerate modes out of the zero-point energy of linear molecules: it is not the energy of
the ground state, though there are no Coriolis couplings. -/
theorem c109_linear_violated : ∃ (modes : List Mode) (x g : Mat ℝ) (e0 zpt G0 G1 G2 : ℝ),
    xcals .linear (fun _ _ _ _ => 0) evenFreq evenCubic (fun _ _ _ => 0) (fun _ => 1) [] [] modes (fun _ _ => 0) = some (x, g, e0) ∧
    (degPairs modes).length = 2 ∧ CouplingAxis (Rotor.linear = .linear) ((degPairs modes).map (·.2)) (fun _ _ => 0) 1 ∧
    Threefold 5 (nonDeg modes) (degPairs modes) (fun _ => 1) evenSign 1 evenFreq evenCubic (fun _ _ _ _ => 0)
      (fun _ _ _ => 0) (fun _ => 1) ∧
    Symm3 5 evenCubic ∧ (∀ i < 5, 0 < evenFreq i) ∧ NoResonance 5 evenFreq ∧ (∀ k ∈ nonDeg modes, evenSign k = 1) ∧
    ((degPairs modes).map (·.1)).Pairwise (· < ·) ∧
    stateEnergy (nonDeg modes) (degPairs modes) evenFreq x (some g) e0 (List.replicate 5 0) (List.replicate 5 (0, 0)) = some zpt ∧
    VibEnergy evenFreq evenCubic (fun _ _ _ _ => 0) (fun _ _ _ => 0) (fun _ => 1) (fun _ : Fin 5 => 0) G0 G1 G2 ∧
    zpt ≠ G0 + G1 + G2 := by
  obtain ⟨x, g, e0, hx⟩ := xcals_runs (rotor := .linear) (by decide) (fun _ _ _ _ => 0) evenFreq evenCubic (fun _ _ _ => 0)
    (fun _ => 1) [] [] [.i1 0, .i2 1 2, .i2 3 4] (fun _ _ => 0)
  have he : e0 = 0 := by
    have h := hx
    unfold xcals at h
    rw [Option.map_eq_some_iff] at h
    obtain ⟨x1, -, e⟩ := h
    have e := congrArg (fun r : Mat ℝ × Mat ℝ × ℝ => r.2.2) e
    dsimp only at e
    rw [← e, part_nonDeg, part_degPairs]
    simp [Rotor.isLinearR, makeE0, partition_eq, e0kkl, e0klm, makeE2, nonDeg, degPairs, sumL_real, sq_real, lit_real, one,
      makeFermiChecks, HMap.empty, HMap.check, evenCubic]
    norm_num
  obtain ⟨a, b, c, d, e, f, i, zpt, G0, G1, G2, hz, hG, j⟩ := even_violated (.inl ⟨rfl, rfl⟩) hx he
  exact ⟨_, x, g, e0, zpt, G0, G1, G2, hx, rfl, a, b, c, d, e, f, i, hz, hG, j⟩

/-- C109 is violated: a symmetric top with three degenerate modes, two of which are coupled with a non-degenerate one. The code
forgets the terms of all pairs of degenerate modes but the last one's, see `c34_pairs_violated`: the zero-point energy is not the
energy of the ground state, though there are no Coriolis couplings. -/
theorem c109_violated : ∃ (modes : List Mode) (x g : Mat ℝ) (e0 zpt G0 G1 G2 : ℝ),
    xcals .oblateSymmTop (fun _ _ _ _ => 0) evenFreq evenCubic (fun _ _ _ => 0) (fun _ => 1) [] [] modes (fun _ _ => 0) =
      some (x, g, e0) ∧
    (degPairs modes).length = 3 ∧ CouplingAxis (Rotor.oblateSymmTop = .linear) ((degPairs modes).map (·.2)) (fun _ _ => 0) 1 ∧
    Threefold 7 (nonDeg modes) (degPairs modes) (fun _ => 1) evenSign 1 evenFreq evenCubic (fun _ _ _ _ => 0)
      (fun _ _ _ => 0) (fun _ => 1) ∧
    Symm3 7 evenCubic ∧ (∀ i < 7, 0 < evenFreq i) ∧ NoResonance 7 evenFreq ∧ (∀ k ∈ nonDeg modes, evenSign k = 1) ∧
    ((degPairs modes).map (·.1)).Pairwise (· < ·) ∧
    stateEnergy (nonDeg modes) (degPairs modes) evenFreq x (some g) e0 (List.replicate 7 0) (List.replicate 7 (0, 0)) = some zpt ∧
    VibEnergy evenFreq evenCubic (fun _ _ _ _ => 0) (fun _ _ _ => 0) (fun _ => 1) (fun _ : Fin 7 => 0) G0 G1 G2 ∧
    zpt ≠ G0 + G1 + G2 := by
  obtain ⟨x, g, e0, hx⟩ := xcals_runs (rotor := .oblateSymmTop) (by decide) (fun _ _ _ _ => 0) evenFreq evenCubic (fun _ _ _ => 0)
    (fun _ => 1) [] [] [.i1 0, .i2 1 2, .i2 3 4, .i2 5 6] (fun _ _ => 0)
  have he : e0 = 0 := by
    have h := hx
    unfold xcals at h
    rw [Option.map_eq_some_iff] at h
    obtain ⟨x1, -, e⟩ := h
    have e := congrArg (fun r : Mat ℝ × Mat ℝ × ℝ => r.2.2) e
    dsimp only at e
    rw [← e, part_nonDeg, part_degPairs]
    simp [Rotor.isLinearR, makeE0, partition_eq, e0kkl, e0klm, makeE2, makeE3, e3Step, e3sst, e3kst, e3stu, nonDeg, degPairs,
      sumL_real, sq_real, lit_real, one, makeFermiChecks, HMap.empty, HMap.check, evenCubic]
    norm_num
  obtain ⟨a, b, c, d, e, f, i, zpt, G0, G1, G2, hz, hG, j⟩ := even_violated (.inr ⟨rfl, rfl⟩) hx he
  exact ⟨_, x, g, e0, zpt, G0, G1, G2, hx, rfl, a, b, c, d, e, f, i, hz, hG, j⟩

/-! ### Examples -/

/-- The hypotheses of `c109_zero_point_partial` are met, with cubic, quartic and Coriolis couplings of all kinds, and the energy
of which it speaks exists; the Coriolis term is not zero. -/
example : ∃ (modes : List Mode) (w : Nat → ℝ) (x g : Mat ℝ) (e0 zpt G0 G1 G2 : ℝ),
    xcals .prolateSymmTop (topQuartic 5 7) w (topCubic 10 20 30) (topZeta fun _ => 1) (fun a => if a = 2 then 5 else 3) [] []
      modes (fun _ _ => 0) = some (x, g, e0) ∧
    CouplingAxis (Rotor.prolateSymmTop = .linear) ((degPairs modes).map (·.2)) (fun _ _ => 0) 1 ∧
    Threefold 3 (nonDeg modes) (degPairs modes) (fun _ => 1) topSign 1 w (topCubic 10 20 30) (topQuartic 5 7)
      (topZeta fun _ => 1) (fun a => if a = 2 then 5 else 3) ∧
    Symm3 3 (topCubic 10 20 30) ∧ Symm4 3 (topQuartic 5 7) ∧
    (∀ a k l, k < 3 → l < 3 → topZeta (fun _ => 1) k l a = -topZeta (fun _ => 1) l k a) ∧
    (∀ i < 3, 0 < w i) ∧ NoResonance 3 w ∧
    (∀ k ∈ nonDeg modes, topSign k = 1 ∨ ∀ t ∈ degPairs modes, ∀ u ∈ degPairs modes, topCubic 10 20 30 k t.1 u.2 = 0) ∧
    (degPairs modes).length = 1 ∧ ((degPairs modes).map (·.1)).Pairwise (· < ·) ∧ (nonDeg modes).length ≤ 3 ∧
    stateEnergy (nonDeg modes) (degPairs modes) w x (some g) e0 (List.replicate 3 0) (List.replicate 3 (0, 0)) = some zpt ∧
    VibEnergy w (topCubic 10 20 30) (topQuartic 5 7) (topZeta fun _ => 1) (fun a => if a = 2 then 5 else 3)
      (fun _ : Fin 3 => 0) G0 G1 G2 ∧
    1 / 2 * (∑ k ∈ range 3, ∑ l ∈ range k, ∑ a ∈ range 3, (if a = 2 then 5 else 3) * topZeta (fun _ => 1) k l a ^ 2 -
      ((degPairs modes).map fun t => ∑ a ∈ range 3, (if a = 2 then 5 else 3) * topZeta (fun _ => 1) t.1 t.2 a ^ 2).sum) = 3 := by
  let w : Nat → ℝ := fun i => if i = 2 then 800 else 900
  obtain ⟨x, g, e0, hx⟩ := xcals_runs (rotor := .prolateSymmTop) (by decide) (topQuartic 5 7) w (topCubic 10 20 30)
    (topZeta fun _ => 1) (fun a => if a = 2 then 5 else 3) [] [] [.i2 0 1, .i1 2] (fun _ _ => 0)
  have n1 : nonDeg [.i2 0 1, .i1 2] = [2] := rfl
  have n2 : degPairs [.i2 0 1, .i1 2] = [(0, 1)] := rfl
  have w0 : w 0 = 900 := by simp [w]
  have w1 : w 1 = 900 := by simp [w]
  have w2 : w 2 = 800 := by simp [w]
  obtain ⟨hp, hw, -⟩ := topLevels w w0 w1 w2
  have hT := top_threefold 10 20 30 5 7 (fun _ => 1) w (fun a => if a = 2 then 5 else 3) (fun _ _ => .inl rfl) (by rw [w0, w1]) rfl
  obtain ⟨⟨G0, G1, G2, hG⟩, -⟩ := top_exists hT w0 w1 w2
  have sym := c30_symmetric_top _ _ _ _ _ _ _ _ _ _ _ _ _ hx
  have hz := stateEnergy_real [2] [(0, 1)] w x (some g) e0
    (.i12st (List.replicate 3 0) (List.replicate 3 (0, 0)))
    (fun i _ j _ => (sym i j).1) (fun i _ j _ G hG => by rw [← Option.some.inj hG]; exact (sym i j).2)
    (by simp [State.v1]) (by simp [State.v2]) (.inr rfl)
  refine ⟨_, w, x, g, e0, _, G0, G1, G2, hx, ?_, ?_, topCubic_symm _ _ _, topQuartic_symm _ _,
    fun a k l hk hl => topZeta_anti _ k l a hk hl, hp, hw, ?_, rfl, ?_, ?_, hz, hG, ?_⟩
  · refine ⟨le_rfl, iff_of_false (by decide) fun h => ?_⟩
    have := h.2.1 1 (by simp)
    norm_num at this
  · rw [n1, n2]
    simpa using hT
  · rw [n1]
    intro k hk
    left
    simp only [List.mem_singleton] at hk
    subst hk
    simp [topSign]
  · simp
  · simp
  · simp [n2, sum_range_succ, topZeta]
    norm_num

/-- Two degenerate modes coupled with a non-degenerate one meet the hypotheses of `c109_zero_point_partial` for a symmetric top. -/
example : Threefold 5 [0] [(1, 2), (3, 4)] (fun _ => 1) evenSign 1 evenFreq evenCubic (fun _ _ _ _ => 0) (fun _ _ _ => 0) (fun _ => 1) ∧
    Symm3 5 evenCubic ∧ (∀ i < 7, 0 < evenFreq i) ∧ NoResonance 7 evenFreq ∧
    ∃ G0 G1 G2, VibEnergy evenFreq evenCubic (fun _ _ _ _ => 0) (fun _ _ _ => 0) (fun _ => 1) (fun _ : Fin 5 => 0) G0 G1 G2 :=
  ⟨even_threefold (.inl ⟨rfl, rfl⟩), evenCubic_symm 5, even_facts.1, even_facts.2.1, even_facts.2.2 5 (.inl rfl)⟩

/-- Three degenerate modes, two of which are coupled with a non-degenerate one, meet the hypotheses of `c109_exact` for a symmetric
top, and the terms left out are not zero. -/
example : Threefold 7 [0] [(1, 2), (3, 4), (5, 6)] (fun _ => 1) evenSign 1 evenFreq evenCubic (fun _ _ _ _ => 0) (fun _ _ _ => 0)
      (fun _ => 1) ∧
    Symm3 7 evenCubic ∧ (∀ i < 7, 0 < evenFreq i) ∧ NoResonance 7 evenFreq ∧
    (∃ x g e0, xcals .oblateSymmTop (fun _ _ _ _ => 0) evenFreq evenCubic (fun _ _ _ => 0) (fun _ => 1) [] []
      [.i1 0, .i2 1 2, .i2 3 4, .i2 5 6] (fun _ _ => 0) = some (x, g, e0)) ∧
    (∃ G0 G1 G2, VibEnergy evenFreq evenCubic (fun _ _ _ _ => 0) (fun _ _ _ => 0) (fun _ => 1) (fun _ : Fin 7 => 0) G0 G1 G2) ∧
    e3Missing False noneOut [0] [1, 3, 5] evenFreq evenCubic ≠ 0 := by
  refine ⟨even_threefold (.inr ⟨rfl, rfl⟩), evenCubic_symm 7, even_facts.1, even_facts.2.1,
    xcals_runs (rotor := .oblateSymmTop) (by decide) .., even_facts.2.2 7 (.inr rfl), ?_⟩
  simp [e3Missing, gFracs, fracUnless, noneOut, evenCubic, evenFreq]
  norm_num

/-- The hypotheses of `c109_run_exact` and `c109_run_partial` are met by the run of a symmetric top of `threefold_run_example`, and the energy of which
it speaks exists. -/
example : ∃ (fc2 : Mat ℝ) (out hout : Output ℝ Nat) (s p : Nat → ℝ) (ax : Nat) (G0 G1 G2 : ℝ),
    let f3x : T3 ℝ := fun i j k => if i = 2 ∧ j = 2 ∧ k = 2 then 1 else 0
    let f4x : T4 ℝ := fun i j k l => if i = 2 ∧ j = 2 ∧ k = 2 ∧ l = 2 then 1 else 0
    exampleThree.rotor.isSymTop = true ∧ exampleThree.rotor ≠ .linear ∧ Symm3 exampleThree.n3n f3x ∧ Symm4 exampleThree.n3n f4x ∧
    run exampleThree (turnedOracles 9 id (3 / 5) (4 / 5)) (.quartic fc2 f3x f4x) = some out ∧
    run exampleThree (turnedOracles 9 id (3 / 5) (4 / 5)) (.harmonic fc2) = some hout ∧
    (out.resonances.fermi1 = [] ∧ out.resonances.fermi2 = []) ∧
    (∀ i < 3, 0 < entryOf hout.harms i) ∧ NoResonance 3 (entryOf hout.harms) ∧
    let w := entryOf hout.harms
    let φ := cubicField 9 exampleThree.axes f3x w out.lx
    let ψ := quarticField 9 exampleThree.axes f4x w out.lx
    let ζ := zetaField 3 out.lxm
    let one := nonDeg out.resonances.modes
    let two := degPairs out.resonances.modes
    Threefold 3 one two s p ax w φ ψ ζ exampleThree.rotcon ∧
    CouplingAxis (exampleThree.rotor = .linear) (two.map (·.2))
      (fun j c => inertiaField 3 exampleThree.pos exampleThree.weights out.lxm j (if c = 3 then 0 else 1) 2) ax ∧
    (∀ k ∈ one, p k = 1 ∨ ∀ t ∈ two, ∀ u ∈ two, φ k t.1 u.2 = 0) ∧ two.length = 1 ∧
    VibEnergy w φ ψ ζ exampleThree.rotcon (fun _ : Fin 3 => 0) G0 G1 G2 := by
  obtain ⟨fc2, out, hout, s, p, ax, G0, G1, G2, E, a, b, c, d, e, f, i, -, n2, j, k, l, hG, -⟩ := threefold_run_example
  exact ⟨fc2, out, hout, s, p, ax, G0, G1, G2, rfl, by decide, a, b, c, d, e, f, i, j, k, l, by rw [n2]; rfl, hG⟩

end Verif
