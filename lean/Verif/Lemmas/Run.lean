import Verif.Model.Run
import Verif.Spec.Run
import Verif.Lemmas.Loop

namespace Verif

section Any
variable {α : Type} [Arith α] {ι : Type}

theorem chunks_step {β : Type} (n : Nat) (hn : 0 < n) (l : List β) (hl : l ≠ []) :
    chunks n l = l.take n :: chunks n (l.drop n) := by
  rw [chunks, dif_neg]
  rintro (h | h)
  · omega
  · exact hl h

theorem chunks_flat {β : Type} (n : Nat) (hn : 0 < n) (L : List (List β)) (h : ∀ l ∈ L, l.length = n) :
    chunks n L.flatten = L := by
  induction L with
  | nil => rw [List.flatten_nil, chunks, dif_pos (Or.inr rfl)]
  | cons a L ih =>
    have ha : a.length = n := h a List.mem_cons_self
    have hne : (a :: L).flatten ≠ [] := by
      intro h0
      rw [List.flatten_cons, List.append_eq_nil_iff] at h0
      rw [h0.1] at ha
      simp at ha
      omega
    rw [chunks_step n hn _ hne, List.flatten_cons, List.take_left' ha, List.drop_left' ha,
      ih fun l hl => h l (List.mem_cons_of_mem _ hl)]

theorem toVec_square (n : Nat) (hn : 0 < n) (m : Mat α) :
    toVec n n m = some ((List.range n).map fun j => (List.range n).map fun i => m i j) := by
  unfold toVec
  rw [if_neg (by rintro (h | h); exact h rfl; omega), List.flatMap_def]
  dsimp only
  rw [chunks_flat n hn]
  intro l hl
  obtain ⟨j, -, rfl⟩ := List.mem_map.1 hl
  simp

theorem mapM_some_length {β γ : Type} {f : β → Option γ} {l : List β} {r : List γ} (h : l.mapM f = some r) :
    r.length = l.length ∧ ∀ (i : Nat) b, l[i]? = some b → ∃ c, r[i]? = some c ∧ f b = some c := by
  induction l generalizing r with
  | nil =>
    obtain rfl : [] = r := by simpa using h
    simp
  | cons a l ih =>
    rw [List.mapM_cons] at h
    simp only [Option.bind_eq_bind, Option.bind_eq_some_iff] at h
    obtain ⟨c, hc, cs, hcs, hr⟩ := h
    obtain rfl : c :: cs = r := Option.some.inj hr
    obtain ⟨h1, h2⟩ := ih hcs
    refine ⟨by simp [h1], ?_⟩
    rintro (_ | i) b hb
    · obtain rfl : a = b := by simpa using hb
      exact ⟨c, rfl, hc⟩
    · exact h2 i b (by simpa using hb)

theorem mapM_runs {β γ : Type} {f : β → Option γ} {l : List β} (h : ∀ b ∈ l, (f b).isSome) :
    (l.mapM f).isSome := by
  induction l with
  | nil => rfl
  | cons a l ih =>
    obtain ⟨c, hc⟩ := Option.isSome_iff_exists.1 (h a List.mem_cons_self)
    obtain ⟨cs, hcs⟩ := Option.isSome_iff_exists.1 (ih fun b hb => h b (List.mem_cons_of_mem _ hb))
    rw [List.mapM_cons, hc, hcs]
    rfl

theorem foldlM_runs {S X : Type} (P : S → Prop) (f : S → X → Option S) (L : List X) (s0 : S) (h0 : P s0)
    (hs : ∀ s x, x ∈ L → P s → ∃ s', f s x = some s' ∧ P s') : ∃ r, L.foldlM f s0 = some r ∧ P r := by
  induction L generalizing s0 with
  | nil => exact ⟨s0, rfl, h0⟩
  | cons x L ih =>
    obtain ⟨s', h1, h2⟩ := hs s0 x List.mem_cons_self h0
    rw [List.foldlM_cons, h1]
    exact ih s' h2 fun s y hy => hs s y (List.mem_cons_of_mem _ hy)

end Any

variable {ι : Type}

theorem irrepLoop_answer (ask : ℝ → Option ι) (a : ι) (fuel : Nat) (eps : ℝ) (r : ι)
    (h : irrepLoop ask a fuel eps (ask eps) = some r) : IrrepAnswer ask a eps r := by
  induction fuel generalizing eps with
  | zero =>
    cases he : ask eps with
    | none => rw [he] at h; cases h
    | some r' =>
      rw [he] at h
      obtain rfl := Option.some.inj (show some r' = some r from h)
      exact ⟨0, by simp, .inl (by simpa using he)⟩
  | succ fuel ih =>
    cases he : ask eps with
    | some r' =>
      rw [he] at h
      obtain rfl := Option.some.inj (show some r' = some r from h)
      exact ⟨0, by simp, .inl (by simpa using he)⟩
    | none =>
      rw [he, irrepLoop] at h
      simp only [le_real, lit_real] at h
      norm_num at h
      split at h
      · rename_i hle
        exact ⟨0, by simp, .inr ⟨by simpa using he, by simpa using hle, (Option.some.inj h).symm⟩⟩
      · rename_i hle
        obtain ⟨k, h1, h2⟩ := ih _ h
        have e : ∀ j : Nat, eps * 10 * 10 ^ j = eps * 10 ^ (j + 1) := fun j => by ring
        refine ⟨k + 1, ?_, ?_⟩
        · rintro (_ | j) hj
          · exact ⟨by simpa using he, by simpa using not_le.1 hle⟩
          · rw [← e]
            exact h1 j (by omega)
        · rw [← e]
          exact h2

theorem irrepLoop_ends (ask : ℝ → Option ι) (a : ι) (n fuel : Nat) (eps : ℝ) (h : 1 / 10 ≤ eps * 10 ^ n)
    (hf : n + 1 ≤ fuel) : (irrepLoop ask a fuel eps (ask eps)).isSome := by
  induction n generalizing eps fuel with
  | zero =>
    obtain ⟨fuel, rfl⟩ := Nat.exists_eq_add_of_le' hf
    cases he : ask eps with
    | some r => rfl
    | none =>
      rw [irrepLoop]
      simp only [le_real, lit_real]
      rw [if_pos (by norm_num at h ⊢; exact h)]
      rfl
  | succ n ih =>
    obtain ⟨fuel, rfl⟩ := Nat.exists_eq_add_of_le' (show 1 ≤ fuel by omega)
    cases he : ask eps with
    | some r => rfl
    | none =>
      rw [irrepLoop]
      simp only [le_real, lit_real]
      split
      · rfl
      · refine ih _ _ ?_ (by omega)
        have : ((10.0 : ℚ) : ℝ) = 10 := by norm_num
        rw [this, mul_assoc, ← pow_succ']
        exact h

theorem irrepLoop_stuck (a : ι) (ask : ℝ → Option ι) (hask : ∀ e, ask e = none) (fuel : Nat) (eps : ℝ)
    (he : eps ≤ 0) : irrepLoop ask a fuel eps none = none := by
  induction fuel generalizing eps with
  | zero => rfl
  | succ fuel ih =>
    have : ((10.0 : ℚ) : ℝ) = 10 := by norm_num
    rw [irrepLoop]
    simp only [le_real, lit_real, hask]
    rw [if_neg (by norm_num; linarith)]
    exact ih _ (by rw [this]; linarith)

end Verif
