import Verif.Model.Align
import Verif.Lemmas.Loop
import Mathlib.Tactic.LinearCombination

/-! Lemmas about the alignment of degenerate modes. -/

namespace Verif

theorem foldlM_option_inv {S X : Type} (P : S → Prop) (f : S → X → Option S) (L : List X) (s0 r : S)
    (h0 : P s0) (hs : ∀ s x s', x ∈ L → P s → f s x = some s' → P s')
    (h : L.foldlM f s0 = some r) : P r := by
  induction L generalizing s0 with
  | nil =>
    obtain rfl := Option.some.inj (show some s0 = some r from h)
    exact h0
  | cons x L ih =>
    rw [List.foldlM_cons] at h
    obtain ⟨s1, h1, h2⟩ := Option.bind_eq_some_iff.mp h
    exact ih s1 (hs _ x _ (by simp) h0 h1) (fun s y s' hy => hs s y s' (by simp [hy])) h2

theorem rotateCols_apply (n m1 m2 : Nat) (hm : m1 ≠ m2) (c s : ℝ) (l : Mat ℝ) (i j : Nat) :
    rotateCols n m1 m2 c s l i j =
      if i < n then
        if j = m1 then c * l i m1 + s * l i m2
        else if j = m2 then c * l i m2 - s * l i m1 else l i j
      else l i j := by
  induction n generalizing i j with
  | zero => simp [rotateCols]
  | succ n ih =>
    unfold rotateCols at ih ⊢
    rw [List.range_succ, List.foldl_append, List.foldl_cons, List.foldl_nil]
    generalize List.foldl _ l (List.range n) = t at ih ⊢
    have hn : ¬ n < n := lt_irrefl n
    unfold Mat.set
    by_cases hi : i = n
    · subst hi
      simp only [true_and, ih, hn, if_false, show i < i + 1 by omega, if_true]
    · simp only [hi, false_and, if_false, ih]
      by_cases h : i < n
      · simp only [h, show i < n + 1 by omega, if_true]
      · simp only [h, show ¬ i < n + 1 by omega, if_false]

theorem negateCol_apply (n m2 : Nat) (l : Mat ℝ) (i j : Nat) :
    negateCol n m2 l i j = if i < n ∧ j = m2 then - l i m2 else l i j := by
  induction n generalizing i j with
  | zero => simp [negateCol]
  | succ n ih =>
    unfold negateCol at ih ⊢
    rw [List.range_succ, List.foldl_append, List.foldl_cons, List.foldl_nil]
    generalize List.foldl _ l (List.range n) = t at ih ⊢
    unfold Mat.set
    have hl : (Arith.lit (-1.0) : ℝ) = -1 := by rw [lit_real]; norm_num
    by_cases hi : i = n
    · subst hi
      by_cases hj : j = m2
      · subst hj
        simp only [and_self, if_true, ih, lt_irrefl, false_and, if_false, hl, show i < i + 1 by omega]
        ring
      · simp only [hj, and_false, if_false, ih]
    · simp only [hi, false_and, if_false, ih]
      by_cases h : i < n
      · have : i < n + 1 := by omega
        simp only [h, this]
      · have : ¬ i < n + 1 := by omega
        simp only [h, this]

/-- column `m2` multiplied by a sign in the first `n` rows -/
def Flipped (n m2 : Nat) (e : ℝ) (l l' : Mat ℝ) : Prop :=
  ∀ i j, l' i j = if i < n ∧ j = m2 then e * l i m2 else l i j

theorem flipped_refl (n m2 : Nat) (l : Mat ℝ) : Flipped n m2 1 l l := by
  intro i j
  split
  · next h => rw [h.2, one_mul]
  · rfl

theorem flipped_neg {n m2 : Nat} {e : ℝ} {l l' : Mat ℝ} (h : Flipped n m2 e l l') :
    Flipped n m2 (-e) l (negateCol n m2 l') := by
  intro i j
  rw [negateCol_apply]
  by_cases hc : i < n ∧ j = m2
  · rw [if_pos hc, if_pos hc, h i m2, if_pos ⟨hc.1, rfl⟩]; ring
  · rw [if_neg hc, if_neg hc, h i j, if_neg hc]

theorem signStep_flip (cfg : AlignCfg) (four : Bool) (a m1 m2 : Nat) (st : SignState ℝ) (k : Nat) :
    (signStep cfg four a m1 m2 st k).lxm = st.lxm ∨
      (signStep cfg four a m1 m2 st k).lxm = negateCol cfg.n3n m2 st.lxm := by
  unfold signStep
  extract_lets
  split_ifs <;> first | exact Or.inl rfl | exact Or.inr rfl

theorem fixSign_flip {cfg : AlignCfg} {four : Bool} {m1 m2 : Nat} {l l' : Mat ℝ}
    (h : fixSign cfg four m1 m2 l = some l') :
    ∃ e : ℝ, (e = 1 ∨ e = -1) ∧ Flipped cfg.n3n m2 e l l' := by
  unfold fixSign at h
  split at h
  · obtain rfl := Option.some.inj h
    split
    · exact ⟨-1, Or.inr rfl, flipped_neg (flipped_refl _ _ _)⟩
    · exact ⟨1, Or.inl rfl, flipped_refl _ _ _⟩
  · simp only [Option.bind_eq_bind, Option.bind_eq_some_iff] at h
    obtain ⟨a, _, h⟩ := h
    obtain rfl := Option.some.inj (show some _ = some l' from h)
    apply foldl_inv (fun st : SignState ℝ => ∃ e : ℝ, (e = 1 ∨ e = -1) ∧ Flipped cfg.n3n m2 e l st.lxm)
    · exact ⟨1, Or.inl rfl, flipped_refl _ _ _⟩
    · rintro st k _ ⟨e, he, hf⟩
      rcases signStep_flip cfg four a m1 m2 st k with h | h
      · rw [h]; exact ⟨e, he, hf⟩
      · rw [h]
        refine ⟨-e, ?_, flipped_neg hf⟩
        rcases he with rfl | rfl
        · exact Or.inr rfl
        · exact Or.inl (by norm_num)

/-- the two columns are turned by an angle and the second possibly reversed; nothing else changes -/
def Turned (n m1 m2 : Nat) (c s e : ℝ) (l l' : Mat ℝ) : Prop :=
  ∀ i j, l' i j = if i < n then
    if j = m1 then c * l i m1 + s * l i m2
    else if j = m2 then e * (c * l i m2 - s * l i m1) else l i j
    else l i j

theorem alignLxm_turned {cfg : AlignCfg} {m1 m2 : Nat} (hm : m1 ≠ m2) {l l' : Mat ℝ}
    (h : alignLxm cfg m1 m2 l = some l') :
    ∃ θ e : ℝ, alignAngle cfg.linear (3 * cfg.iatom) m1 m2 l = some θ ∧ (e = 1 ∨ e = -1) ∧
      Turned cfg.n3n m1 m2 (Real.cos θ) (Real.sin θ) e l l' := by
  unfold alignLxm at h
  simp only [Option.bind_eq_bind, Option.bind_eq_some_iff] at h
  obtain ⟨θ, hθ, h⟩ := h
  obtain ⟨e, he, hf⟩ := fixSign_flip h
  refine ⟨θ, e, hθ, he, fun i j => ?_⟩
  rw [hf i j]
  have hm' : ¬ m2 = m1 := fun h => hm h.symm
  by_cases hi : i < cfg.n3n
  · by_cases hj : j = m2
    · subst hj
      simp only [hi, true_and, if_true, rotateCols_apply _ _ _ hm, hm', if_false, cos_real, sin_real]
    · simp only [hi, hj, and_false, if_false, if_true, rotateCols_apply _ _ _ hm, cos_real, sin_real]
  · simp only [hi, false_and, if_false, rotateCols_apply _ _ _ hm]

theorem incPairs_lt {n : Nat} {p : Nat × Nat} (h : p ∈ incPairs n) : p.1 < p.2 ∧ p.2 < n := by
  unfold incPairs at h
  simp only [List.mem_flatMap, List.mem_range, List.mem_map, List.mem_range'_1] at h
  obtain ⟨i, hi, j, hj, rfl⟩ := h
  dsimp only; omega

theorem alignLxm_runs (cfg : AlignCfg) (m1 m2 : Nat) (l : Mat ℝ) (θ : ℝ)
    (h : alignAngle cfg.linear (3 * cfg.iatom) m1 m2 l = some θ)
    (hb : cfg.linear = true ∨ ∃ b, cfg.buddy = some b) : ∃ l', alignLxm cfg m1 m2 l = some l' := by
  unfold alignLxm
  simp only [h, Option.bind_eq_bind, Option.bind_some]
  unfold fixSign
  cases hl : cfg.linear with
  | true => exact ⟨_, rfl⟩
  | false =>
    rcases hb with hb | ⟨b, hb⟩
    · rw [hl] at hb; simp at hb
    · rw [hb]; exact ⟨_, rfl⟩

/-- An invariant of the mode matrix through `bdegnl`. -/
theorem bdegnl_inv (cfg : AlignCfg) (freq w : Vec ℝ) (lxm lx lxm' lx' : Mat ℝ)
    (h : bdegnl cfg freq w lxm lx = some (lxm', lx')) (P : Mat ℝ → Prop) (h0 : P lxm)
    (hs : ∀ m1 m2 l l' θ e, m1 < m2 → m2 < cfg.nvib → |freq m1 - freq m2| < alignTol cfg.linear → P l →
      (e = 1 ∨ e = -1) → Turned cfg.n3n m1 m2 (Real.cos θ) (Real.sin θ) e l l' → P l') : P lxm' := by
  unfold bdegnl at h
  split at h
  · simp at h
  · refine foldlM_option_inv (fun st : Mat ℝ × Mat ℝ => P st.1) _ _ _ (lxm', lx') h0 ?_ h
    rintro st p st' hp hP hst
    obtain ⟨h1, h2⟩ := incPairs_lt hp
    unfold alignStep at hst
    split at hst
    · next hc =>
      simp only [Option.bind_eq_bind, Option.bind_eq_some_iff] at hst
      obtain ⟨l', hl, hst⟩ := hst
      obtain rfl := Option.some.inj (show some _ = some st' from hst)
      obtain ⟨θ, e, _, he, ht⟩ := alignLxm_turned (by omega) hl
      refine hs p.1 p.2 st.1 l' θ e h1 h2 ?_ hP he ht
      unfold close at hc
      rwa [lt_real, abs_real] at hc
    · obtain rfl := Option.some.inj hst
      exact hP

theorem rescaleLx_apply (natom : Nat) (w : Vec ℝ) (m1 m2 : Nat) (lxm lx : Mat ℝ) (i j : Nat) :
    rescaleLx natom w m1 m2 lxm lx i j =
      if i < 3 * natom ∧ (j = m1 ∨ j = m2) then lxm i j * (1 / Real.sqrt (w (i / 3))) else lx i j := by
  have key : ∀ (m : Nat) (lx : Mat ℝ) (i j : Nat),
      ((pairs natom 3).foldl (fun lx p => Mat.set lx (3 * p.1 + p.2) m
        (lxm (3 * p.1 + p.2) m * (Arith.lit 1.0 / Arith.sqrt (w p.1)))) lx) i j =
      if i < 3 * natom ∧ j = m then lxm i j * (1 / Real.sqrt (w (i / 3))) else lx i j := by
    intro m lx i j
    by_cases h : i < 3 * natom ∧ j = m
    · rw [if_pos h]
      refine foldl_write_eq (fun l : Mat ℝ => l i j) (fun p : Nat × Nat => i = 3 * p.1 + p.2 ∧ j = m)
        (fun p => lxm (3 * p.1 + p.2) m * (Arith.lit 1.0 / Arith.sqrt (w p.1))) _ ?_ _ _ _ ?_ ?_
      · intro t p; rfl
      · rintro ⟨a, b⟩ hp ⟨h1, h2⟩
        simp only [pairs, List.mem_flatMap, List.mem_range, List.mem_map, Prod.mk.injEq] at hp
        obtain ⟨a', _, b', hb, rfl, rfl⟩ := hp
        dsimp only at h1 ⊢
        rw [← h1, h2, lit_real, sqrt_real, show i / 3 = a' by omega]
        norm_num
      · refine ⟨(i / 3, i % 3), ?_, by dsimp only; omega, h.2⟩
        simp only [pairs, List.mem_flatMap, List.mem_range, List.mem_map, Prod.mk.injEq]
        exact ⟨i / 3, by omega, i % 3, by omega, rfl, rfl⟩
    · rw [if_neg h]
      refine foldl_write_ne (fun l : Mat ℝ => l i j) (fun p : Nat × Nat => i = 3 * p.1 + p.2 ∧ j = m)
        (fun p => lxm (3 * p.1 + p.2) m * (Arith.lit 1.0 / Arith.sqrt (w p.1))) _ ?_ _ _ ?_
      · intro t p; rfl
      · rintro ⟨a, b⟩ hp ⟨h1, h2⟩
        simp only [pairs, List.mem_flatMap, List.mem_range, List.mem_map, Prod.mk.injEq] at hp
        obtain ⟨a', ha, b', hb, rfl, rfl⟩ := hp
        dsimp only at h1
        exact h ⟨by omega, h2⟩
  unfold rescaleLx
  simp only [List.foldl_cons, List.foldl_nil]
  rw [key, key]
  by_cases h : i < 3 * natom
  · by_cases h1 : j = m1 <;> by_cases h2 : j = m2 <;> simp [h, h1, h2]
  · simp [h]

end Verif
