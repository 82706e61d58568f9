import Verif.Lemmas.ThreefoldX
import Verif.Props.Xcals
import Verif.Props.Coupled
import Verif.Props.SymSolver

/-!
# C105: fundamentals of symmetric tops from the Schrödinger equation
-/

namespace Verif

open Finset Osc

theorem foldl_lsum {X : Type} (L : List X) (f : X → ℝ) (g : ℝ → X → ℝ) (hg : ∀ v x, g v x = v + f x) (a : ℝ) :
    L.foldl g a = a + (L.map f).sum := by
  induction L generalizing a with
  | nil => simp
  | cons x L ih => rw [List.foldl_cons, ih, hg, List.map_cons, List.sum_cons]; ring

theorem lsum_except {L : List Nat} (hL : L.Nodup) {k : Nat} (hk : k ∈ L) (f : Nat → ℝ) :
    (L.map fun j => if j ≠ k then f j else 0).sum = (L.map f).sum - f k := by
  rw [← List.sum_toFinset _ hL, ← List.sum_toFinset _ hL, ← Finset.sum_erase_add _ _ (List.mem_toFinset.2 hk),
    ← Finset.sum_erase_add _ f (List.mem_toFinset.2 hk)]
  rw [if_neg (by simp), sum_congr rfl fun j hj => if_pos (Finset.ne_of_mem_erase hj)]
  ring

section
variable {rotor : Rotor} {N : Nat} {F4 : T4 ℝ} {w : Vec ℝ} {F3 zeta : T3 ℝ} {B : Vec ℝ} {modes : List Mode} {wila x g : Mat ℝ}
  {e0 : ℝ} {s p : Nat → ℝ} {ax : Nat}

theorem threefold_constants (hx : xcals rotor F4 w F3 zeta B [] [] modes wila = some (x, g, e0))
    (hax : CouplingAxis (rotor = .linear) ((degPairs modes).map (·.2)) wila ax)
    (hT : Threefold N (nonDeg modes) (degPairs modes) s p ax w F3 F4 zeta B)
    (h3 : Symm3 N F3) (h4 : Symm4 N F4) (hz : ∀ a k l, k < N → l < N → zeta k l a = -zeta l k a)
    (hp : ∀ i < N, 0 < w i) (hw : NoResonance N w)
    (hc : ∀ k ∈ nonDeg modes, p k = 1 ∨ ∀ t ∈ degPairs modes, ∀ u ∈ degPairs modes, F3 k t.1 u.2 = 0) :
    let X := xSpec noneOut N w F3 F4 zeta B
    (∀ k ∈ nonDeg modes, ∀ l ∈ nonDeg modes, x k l = X k l) ∧
    (∀ k ∈ nonDeg modes, ∀ t ∈ degPairs modes, x k t.1 = X k t.1 ∧ x k t.1 = X k t.2) ∧
    (∀ t ∈ degPairs modes, 3 * x t.1 t.1 + g t.1 t.1 = 2 * X t.1 t.1 + 1 / 2 * X t.1 t.2 ∧ X t.2 t.2 = X t.1 t.1) ∧
    ∀ t ∈ degPairs modes, ∀ u ∈ degPairs modes, t ≠ u →
      x t.1 u.1 = 1 / 2 * (X t.1 u.1 + X t.1 u.2) ∧ x t.1 u.1 = 1 / 2 * (X t.2 u.1 + X t.2 u.2) := by
  intro X
  have hc' : ∀ k ∈ nonDeg modes, ∀ t ∈ degPairs modes, ∀ u ∈ degPairs modes, F3 k t.1 u.2 = 0 := by
    intro k hk t ht u hu
    rcases hc k hk with h | h
    · have e := hT.flip3 (hT.lt1 hk) (hT.ltf ht) (hT.lts hu)
      rw [h, (hT.components t ht).1, (hT.components u hu).2] at e
      linarith
    · exact h t ht u hu
  have d := hT.distinct
  have hd : (modeNumbers modes).Nodup := (modeNumbers_perm modes).nodup_iff.2 d
  have lt : ∀ m ∈ modeNumbers modes, m < N := fun m hm =>
    List.mem_range.1 (hT.modes.mem_iff.1 ((modeNumbers_perm modes).mem_iff.1 hm))
  have sym := c30_symmetric_top _ _ _ _ _ _ _ _ _ _ _ _ _ hx
  have Xs : ∀ a b, X a b = X b a := xSpec_symm _ _ _ _ _ _ _
  have L0 : Listed [] [] = noneOut := by funext a b c; simp [Listed]
  have L1 : (fun a _ c => (⟨a, c⟩ : Fermi1) ∈ ([] : List Fermi1)) = noneOut := by funext a b c; simp
  have th : ∀ k l m, ThirdOnly [] [] k l m := fun k l m => by simp [ThirdOnly, Listed]
  have dens : ∀ k l m, k < N → l < N → m < N → DensOk w k l m := fun k l m hk hl hm =>
    ⟨(hw k l m hk hl hm).1, fun c => (hw k m l hk hm hl).2 (by linarith), (hw k l m hk hl hm).2,
      fun c => (hw l m k hl hm hk).2 (by linarith)⟩
  have m1 : ∀ k ∈ nonDeg modes, k < N := fun k hk => hT.lt1 hk
  have m2 : ∀ k ∈ (degPairs modes).map (·.1), k < N := fun k hk => by
    obtain ⟨t, ht, rfl⟩ := List.mem_map.1 hk; exact hT.ltf ht
  have dia : ∀ k < N, ∀ l ∈ modeNumbers modes, ⟨k, l⟩ ∉ ([] : List Fermi1) → w l ≠ 0 ∧ 2 * w k + w l ≠ 0 ∧ 2 * w k - w l ≠ 0 :=
    fun k hk l hl _ => by
      have a := hp l (lt l hl)
      have b := hp k hk
      exact ⟨a.ne', by positivity, fun c => (hw k k l hk hk (lt l hl)).2 (by linarith)⟩
  refine ⟨?_, ?_, ?_, ?_⟩
  · have off : ∀ a b : Nat, b < a → ∀ k l, (nonDeg modes)[a]? = some k → (nonDeg modes)[b]? = some l → x k l = X k l := by
      intro a b hab k l ek el
      have hk := List.mem_of_getElem? ek
      have hl := List.mem_of_getElem? el
      have := c33_nondegenerate_partial rotor F4 w F3 zeta B [] [] modes wila x g e0 hx hd a b hab k l ek el
        (fun m hm => (h3 _ _ _ (m1 k hk) (m1 m hm) (m1 l hl)).2) (fun m _ => th k l m)
        (fun m hm _ => dens k l m (m1 k hk) (m1 l hl) (m1 m hm))
      rw [L0] at this
      rw [this]
      refine (hT.x_one_one h3 h4 hz hk hl fun e => ?_).symm
      subst e
      obtain ⟨ha, ea⟩ := List.getElem?_eq_some_iff.1 ek
      obtain ⟨hb, eb⟩ := List.getElem?_eq_some_iff.1 el
      have := (d.d1.getElem_inj_iff (hi := ha) (hj := hb)).1 (ea.trans eb.symm)
      omega
    intro k hk l hl
    obtain ⟨a, ha, rfl⟩ := List.mem_iff_getElem.1 hk
    obtain ⟨b, hb, rfl⟩ := List.mem_iff_getElem.1 hl
    rcases lt_trichotomy a b with c | rfl | c
    · rw [(sym _ _).1, off b a c _ _ (List.getElem?_eq_getElem hb) (List.getElem?_eq_getElem ha), Xs]
    · have := (c33_diagonal rotor F4 w F3 zeta B [] [] modes wila x g e0 hx hd _ (by simp) (dia _ (m1 _ hk))).1
        (mem_nonDeg.1 hk)
      rw [L1] at this
      rw [this]
      exact (hT.x_kk hk).symm
    · exact off a b c _ _ (List.getElem?_eq_getElem ha) (List.getElem?_eq_getElem hb)
  · intro k hk t ht
    have := c33_mixed_partial rotor F4 w F3 zeta B [] [] modes wila x g e0 hx hd k t.1 t.2 (mem_nonDeg.1 hk) (mem_degPairs.1 ht)
      (fun m _ => th _ _ m) (fun m hm _ => dens _ _ m (m1 k hk) (hT.ltf ht) (m2 m hm))
    rw [L0] at this
    obtain ⟨a, b⟩ := hT.x_one_two h3 h4 hz hk ht (fun u hu => hc' k hk t ht u hu)
    exact ⟨this.trans a.symm, this.trans b.symm⟩
  · intro t ht
    obtain ⟨a, b⟩ := hT.x_diag h3 h4 hz ht (hp _ (hT.ltf ht)).ne'
    refine ⟨?_, b⟩
    have e1 := (c33_diagonal rotor F4 w F3 zeta B [] [] modes wila x g e0 hx hd t.1 (by simp) (dia _ (hT.ltf ht))).2 t.2
      (mem_degPairs.1 ht)
    have e2 := c66_diagonal_partial rotor F4 w F3 zeta B [] [] modes wila x g e0 hx hd t.1 t.2 (mem_degPairs.1 ht) (by simp)
      (by simp) (dia _ (hT.ltf ht))
    rw [L1] at e1 e2
    rw [e1, e2]
    exact a.symm
  · have off : ∀ a b : Nat, b < a → ∀ k l, (degPairs modes)[a]? = some k → (degPairs modes)[b]? = some l →
        k ≠ l ∧ x k.1 l.1 = xddSpec noneOut (nonDeg modes) ((degPairs modes).map (·.1)) w F3 F4 zeta B ax k.1 l.1 l.2 := by
      intro a b hab k l ek el
      have hk := List.mem_of_getElem? ek
      have hl := List.mem_of_getElem? el
      have := c33_degenerate_partial rotor F4 w F3 zeta B [] [] modes wila x g e0 hx hd a b hab k l ek el ax hax
        (fun m _ => th _ _ m) (fun m hm _ => dens _ _ m (hT.ltf hk) (hT.ltf hl)
          ((List.mem_append.1 hm).elim (m1 m) (m2 m)))
      rw [L0] at this
      refine ⟨fun e => ?_, this⟩
      subst e
      obtain ⟨ha, ea⟩ := List.getElem?_eq_some_iff.1 ek
      obtain ⟨hb, eb⟩ := List.getElem?_eq_some_iff.1 el
      have := ((List.Nodup.of_map _ d.d2).getElem_inj_iff (hi := ha) (hj := hb)).1 (ea.trans eb.symm)
      omega
    intro t ht u hu hn
    obtain ⟨a1, a2⟩ := hT.x_two_two h3 h4 hz ht hu hn (fun m hm => hc' m hm t ht u hu)
    obtain ⟨b1, b2⟩ := hT.x_two_two h3 h4 hz hu ht hn.symm (fun m hm => hc' m hm u hu t ht)
    obtain ⟨a, ha, rfl⟩ := List.mem_iff_getElem.1 ht
    obtain ⟨b, hb, rfl⟩ := List.mem_iff_getElem.1 hu
    have y1 := Xs ((degPairs modes)[a]).1 ((degPairs modes)[b]).1
    have y2 := Xs ((degPairs modes)[a]).1 ((degPairs modes)[b]).2
    have y3 := Xs ((degPairs modes)[a]).2 ((degPairs modes)[b]).1
    have y4 := Xs ((degPairs modes)[a]).2 ((degPairs modes)[b]).2
    rcases lt_trichotomy a b with c | rfl | c
    · rw [(sym _ _).1, (off b a c _ _ (List.getElem?_eq_getElem hb) (List.getElem?_eq_getElem ha)).2]
      constructor <;> linarith
    · exact absurd rfl hn
    · rw [(off a b c _ _ (List.getElem?_eq_getElem ha) (List.getElem?_eq_getElem hb)).2]
      exact ⟨a1.symm, a2.symm⟩

/-- C105: let no Fermi resonances be listed for a symmetric top whose frequencies, force constants and Coriolis constants have
a threefold axis, and a perpendicular half-turn or a mirror plane through the axis (`Threefold`), let the axis `ax` of the
half-turn, or the one perpendicular to the mirror plane, be the one the code takes for the Coriolis couplings of degenerate
modes, and let every non-degenerate mode be even (`p k = 1`) or not couple the first component of a degenerate mode with a
second one. Then the fundamentals are, to second order of perturbation theory for the vibrational Hamiltonian, the
differences between the energies of the states with one quantum and that of the ground state: first those of the
non-degenerate modes, then those of the degenerate ones, the same for both components.
Missing: odd non-degenerate modes which couple with two degenerate ones, see `c105_violated`, and an axis other than the one the
code takes, see `c105_axis_violated`. -/
theorem c105_fundamentals_partial (hx : xcals rotor F4 w F3 zeta B [] [] modes wila = some (x, g, e0))
    (hax : CouplingAxis (rotor = .linear) ((degPairs modes).map (·.2)) wila ax)
    (hT : Threefold N (nonDeg modes) (degPairs modes) s p ax w F3 F4 zeta B)
    (h3 : Symm3 N F3) (h4 : Symm4 N F4) (hz : ∀ a k l, k < N → l < N → zeta k l a = -zeta l k a)
    (hp : ∀ i < N, 0 < w i) (hw : NoResonance N w)
    (hc : ∀ k ∈ nonDeg modes, p k = 1 ∨ ∀ t ∈ degPairs modes, ∀ u ∈ degPairs modes, F3 k t.1 u.2 = 0)
    (harms funds : List ℝ) (hf : makeSymFunds modes w x (some g) = some (harms, funds))
    (G0 G1 G2 : ℝ) (hG : VibEnergy w F3 F4 zeta B (fun _ : Fin N => 0) G0 G1 G2) :
    (∀ q k : Nat, (nonDeg modes)[q]? = some k → ∀ E0 E1 E2,
      VibEnergy w F3 F4 zeta B (fun j : Fin N => if (j : Nat) = k then 1 else 0) E0 E1 E2 →
      funds[q]? = some (E0 + E1 + E2 - (G0 + G1 + G2))) ∧
    ∀ (q : Nat) (t : Nat × Nat), (degPairs modes)[q]? = some t → ∀ c, c = t.1 ∨ c = t.2 → ∀ E0 E1 E2,
      VibEnergy w F3 F4 zeta B (fun j : Fin N => if (j : Nat) = c then 1 else 0) E0 E1 E2 →
      funds[(nonDeg modes).length + q]? = some (E0 + E1 + E2 - (G0 + G1 + G2)) := by
  obtain ⟨x11, x12, x22, x2o⟩ := threefold_constants hx hax hT h3 h4 hz hp hw hc
  set X := xSpec noneOut N w F3 F4 zeta B with hX
  have Xs : ∀ a b, X a b = X b a := xSpec_symm _ _ _ _ _ _ _
  have d := hT.distinct
  obtain ⟨g0, g1, g2⟩ := vib_formula (n := fun _ => 0) h3 h4 hz hp hw hG
  have key : ∀ c < N, ∀ E0 E1 E2, VibEnergy w F3 F4 zeta B (fun j : Fin N => if (j : Nat) = c then 1 else 0) E0 E1 E2 →
      E0 + E1 + E2 - (G0 + G1 + G2) = w c + 3 / 2 * X c c + 1 / 2 * (((nonDeg modes).map fun j => X c j).sum +
        ((degPairs modes).map fun t => X c t.1 + X c t.2).sum) := by
    intro c hcN E0 E1 E2 hE
    obtain ⟨a0, a1, a2⟩ := vib_formula (n := quanta c 1) h3 h4 hz hp hw
      (show VibEnergy w F3 F4 zeta B (fun j : Fin N => quanta c 1 j) E0 E1 E2 from hE)
    have e := single_sum X Xs w N c hcN
    have er : ∑ j ∈ (range N).erase c, X c j = ∑ j ∈ range N, X c j - X c c := by
      rw [← Finset.sum_erase_add (range N) (fun j => X c j) (mem_range.2 hcN)]; ring
    rw [er, hT.sum fun j => X c j] at e
    rw [a0, a1, a2, g0, g1, g2]
    simp only [quanta, ite_self, hX] at e ⊢
    linear_combination e
  unfold makeSymFunds at hf
  simp only [Option.map_eq_some_iff, part_nonDeg, part_degPairs, Option.map_some, Prod.mk.injEq] at hf
  obtain ⟨second, hsec, -, rfl⟩ := hf
  have l2 : (Arith.lit 2.0 : ℝ) = 2 := by rw [lit_real]; norm_num
  have l3 : (Arith.lit 3.0 : ℝ) = 3 := by rw [lit_real]; norm_num
  have l5 : (Arith.lit 0.5 : ℝ) = 1 / 2 := by rw [lit_real]; norm_num
  simp only [l2, l3, l5] at hsec ⊢
  constructor
  · intro q k hq E0 E1 E2 hE
    have hk := List.mem_of_getElem? hq
    obtain ⟨hl, -⟩ := List.getElem?_eq_some_iff.1 hq
    rw [List.getElem?_append_left (by simpa using hl), List.getElem?_map, hq, Option.map_some, Option.some.injEq, key k (hT.lt1 hk) _ _ _ hE]
    rw [foldl_lsum ((degPairs modes).map (·.1)) (fun j => x k j) _ fun _ _ => rfl,
      foldl_lsum (nonDeg modes) (fun j => if j ≠ k then 1 / 2 * x k j else 0) _ fun v j => by split <;> simp,
      lsum_except d.d1 hk, List.map_map, x11 k hk k hk]
    have a := lsum_lin (nonDeg modes) 1 0 (1 / 2) 0 (fun j => 1 / 2 * x k j) (fun _ => 0) (fun j => X k j) (fun _ => 0) fun j hj => by
      rw [x11 k hk j hj]; ring
    have b := lsum_lin (degPairs modes) 1 0 (1 / 2) 0 ((fun j => x k j) ∘ (·.1)) (fun _ => 0) (fun t => X k t.1 + X k t.2) (fun _ => 0)
      fun t ht => by
        rw [Function.comp_apply, ← (x12 k hk t ht).1, ← (x12 k hk t ht).2]; ring
    linear_combination a + b
  · intro q t hq c hct E0 E1 E2 hE
    have ht := List.mem_of_getElem? hq
    have hcN : c < N := by rcases hct with rfl | rfl; exacts [hT.ltf ht, hT.lts ht]
    have hwc : w c = w t.1 := by rcases hct with rfl | rfl; exacts [rfl, hT.frequencies t ht]
    rw [List.getElem?_append_right (by simp), List.length_map, Nat.add_sub_cancel_left]
    rw [mapM_option_some] at hsec
    have e := congrArg (fun l => l[q]?) hsec
    simp only [List.getElem?_map, hq, Option.map_some] at e
    have e' : second[q]? = some ((List.map (fun x => x.1) (degPairs modes)).foldl (fun val j => if j ≠ t.1 then val + x t.1 j else val)
        ((nonDeg modes).foldl (fun val j => val + 1 / 2 * x t.1 j) (w t.1 + 3 * x t.1 t.1 + g t.1 t.1))) := by
      cases h : second[q]? with
      | none => rw [h] at e; cases e
      | some y => rw [h] at e; exact (Option.some.inj e).symm
    rw [e', Option.some.injEq, key c hcN _ _ _ hE, hwc]
    have mem1 : t.1 ∈ (degPairs modes).map (·.1) := List.mem_map_of_mem ht
    rw [foldl_lsum ((degPairs modes).map (·.1)) (fun j => if j ≠ t.1 then x t.1 j else 0) _ fun v j => by split <;> simp,
      foldl_lsum (nonDeg modes) (fun j => 1 / 2 * x t.1 j) _ fun _ _ => rfl, lsum_except d.d2 mem1, List.map_map]
    have sym := c30_symmetric_top _ _ _ _ _ _ _ _ _ _ _ _ _ hx
    have a := lsum_lin (nonDeg modes) 1 0 (1 / 2) 0 (fun j => 1 / 2 * x t.1 j) (fun _ => 0) (fun j => X c j) (fun _ => 0) fun j hj => by
      rw [(sym t.1 j).1, Xs c j]
      rcases hct with rfl | rfl
      · rw [(x12 j hj t ht).1]; ring
      · rw [(x12 j hj t ht).2]; ring
    have b := lsum_lin (degPairs modes) 1 1 (1 / 2) 0 (fun u => if u.1 ≠ t.1 then x t.1 u.1 else 0)
      (fun u => if u.1 ≠ t.1 then 0 else 1 / 2 * (X c t.1 + X c t.2)) (fun u => X c u.1 + X c u.2) (fun _ => 0) fun u hu => by
        by_cases hut : u = t
        · subst hut; simp
        · rw [if_pos fun h => hut (d.inj1 hu ht h), if_pos fun h => hut (d.inj1 hu ht h)]
          rcases hct with rfl | rfl
          · rw [(x2o t ht u hu (Ne.symm hut)).1]; ring
          · rw [(x2o t ht u hu (Ne.symm hut)).2]; ring
    have b1 := lsum_except d.d2 mem1 fun j => x t.1 j
    have b2 := lsum_except d.d2 mem1 fun _ => 1 / 2 * (X c t.1 + X c t.2)
    have b3 := lsum_lin ((degPairs modes).map (·.1)) 1 1 1 0 (fun j => if j ≠ t.1 then 1 / 2 * (X c t.1 + X c t.2) else 0)
      (fun j => if j ≠ t.1 then 0 else 1 / 2 * (X c t.1 + X c t.2)) (fun _ => 1 / 2 * (X c t.1 + X c t.2)) (fun _ => 0) fun j _ => by
        split <;> simp
    simp only [List.map_map, Function.comp_def] at b1 b2 b3 ⊢
    have f := (x22 t ht).1
    have f' : 2 * X c c + 1 / 2 * X t.1 t.2 = 3 * x t.1 t.1 + g t.1 t.1 := by
      rcases hct with rfl | rfl
      · rw [f]
      · rw [(x22 t ht).2, f]
    have f2 : X c t.1 + X c t.2 = X c c + X t.1 t.2 := by
      rcases hct with rfl | rfl
      · rfl
      · rw [Xs t.2 t.1]; ring
    linear_combination a + b - b1 - b3 + b2 - f' - f2 / 2

end

end Verif
