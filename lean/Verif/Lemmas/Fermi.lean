import Verif.Model.Fermi
import Verif.Lemmas.Loop

/-! Lemmas about maps filled by a loop. -/

namespace Verif

/-- A loop of insertions, observed at one key: the value of the last matching entry. -/
theorem foldl_insert_last {K X : Type} [DecidableEq K] (key : X → K) (val : X → Nat) (L : List X)
    (m : HMap K) (k : K) (v : Nat) :
    (L.foldl (fun m x => m.insert (key x) (val x)) m) k = some v ↔
      (∃ l₁ x l₂, L = l₁ ++ x :: l₂ ∧ key x = k ∧ val x = v ∧ ∀ y ∈ l₂, key y ≠ k) ∨
      ((∀ y ∈ L, key y ≠ k) ∧ m k = some v) := by
  induction L using List.reverseRecOn with
  | nil => simp
  | append_singleton L a ih =>
    rw [List.foldl_append, List.foldl_cons, List.foldl_nil, HMap.insert]
    by_cases h : k = key a
    · rw [if_pos h]
      constructor
      · intro e
        exact .inl ⟨L, a, [], rfl, h.symm, Option.some.inj e, by simp⟩
      · rintro (⟨l₁, x, l₂, e, hk, hv, hl⟩ | ⟨hl, -⟩)
        · rcases List.eq_nil_or_concat l₂ with rfl | ⟨l, b, rfl⟩
          · have := List.append_inj' e rfl
            simp only [List.cons.injEq, and_true] at this
            rw [this.2, hv]
          · exfalso
            rw [List.concat_eq_append, ← List.cons_append, ← List.append_assoc] at e
            have := List.append_inj' e rfl
            simp only [List.cons.injEq, and_true] at this
            exact hl b (by simp) (by rw [← this.2, h])
        · exact absurd h.symm (hl a (by simp))
    · rw [if_neg h, ih]
      refine or_congr ?_ ?_
      · constructor
        · rintro ⟨l₁, x, l₂, rfl, hk, hv, hl⟩
          refine ⟨l₁, x, l₂ ++ [a], by simp, hk, hv, ?_⟩
          intro y hy
          rw [List.mem_append, List.mem_singleton] at hy
          rcases hy with hy | rfl
          · exact hl y hy
          · exact fun e => h e.symm
        · rintro ⟨l₁, x, l₂, e, hk, hv, hl⟩
          rcases List.eq_nil_or_concat l₂ with rfl | ⟨l, b, rfl⟩
          · have := List.append_inj' e rfl
            simp only [List.cons.injEq, and_true] at this
            exact absurd (by rw [this.2, hk]) h
          · rw [List.concat_eq_append, ← List.cons_append, ← List.append_assoc] at e
            have := List.append_inj' e rfl
            exact ⟨l₁, x, l, this.1, hk, hv, fun y hy => hl y (by simp [hy])⟩
      · refine and_congr_left fun _ => ?_
        simp only [List.mem_append, List.mem_singleton]
        exact ⟨fun hh y hy => hy.elim (hh y) (fun e => e ▸ fun e' => h e'.symm),
          fun hh y hy => hh y (.inl hy)⟩

/-- Two successive folds of insertions are one. -/
theorem ifrm2_fold (f1 : List Fermi1) (f2 : List Fermi2) :
    (makeFermiChecks f1 f2).ifrm2 =
      (f1.map (fun f => (⟨f.i, f.i, f.j⟩ : Fermi2)) ++ f2).foldl
        (fun m f => m.insert (f.i, f.j) f.k) HMap.empty := by
  have h1 : ∀ (l : List Fermi1) (t : FermiChecks), (l.foldl fermiStep1 t).ifrm2 =
      (l.map (fun f => (⟨f.i, f.i, f.j⟩ : Fermi2))).foldl (fun m f => m.insert (f.i, f.j) f.k)
        t.ifrm2 := by
    intro l
    induction l with
    | nil => intro t; rfl
    | cons a l ih => intro t; rw [List.foldl_cons, ih]; rfl
  have h2 : ∀ (l : List Fermi2) (t : FermiChecks), (l.foldl fermiStep2 t).ifrm2 =
      l.foldl (fun m f => m.insert (f.i, f.j) f.k) t.ifrm2 := by
    intro l
    induction l with
    | nil => intro t; rfl
    | cons a l ih => intro t; rw [List.foldl_cons, ih]; rfl
  rw [makeFermiChecks, h2, h1, List.foldl_append]

theorem ifrm1_fold (f1 : List Fermi1) (f2 : List Fermi2) :
    (makeFermiChecks f1 f2).ifrm1 = f1.foldl (fun m f => m.insert f.i f.j) HMap.empty := by
  have h1 : ∀ (l : List Fermi1) (t : FermiChecks), (l.foldl fermiStep1 t).ifrm1 =
      l.foldl (fun m f => m.insert f.i f.j) t.ifrm1 := by
    intro l
    induction l with
    | nil => intro t; rfl
    | cons a l ih => intro t; rw [List.foldl_cons, ih]; rfl
  have h2 : ∀ (l : List Fermi2) (t : FermiChecks), (l.foldl fermiStep2 t).ifrm1 = t.ifrm1 := by
    intro l
    induction l with
    | nil => intro t; rfl
    | cons a l ih => intro t; rw [List.foldl_cons, ih]; rfl
  rw [makeFermiChecks, h2, h1]

theorem exists_mem_snoc {X : Type} (l : List X) (x : X) (P : X → Prop) :
    (∃ f ∈ l ++ [x], P f) ↔ (∃ f ∈ l, P f) ∨ P x := by
  simp only [List.mem_append, List.mem_singleton]
  exact ⟨fun ⟨f, hf, e⟩ => hf.elim (fun h => .inl ⟨f, h, e⟩) (fun h => .inr (h ▸ e)),
    fun h => h.elim (fun ⟨f, hf, e⟩ => ⟨f, .inl hf, e⟩) (fun e => ⟨x, .inr rfl, e⟩)⟩

theorem chk_fold1 (l : List Fermi1) (t : FermiChecks) (a b c : Nat) :
    (l.foldl fermiStep1 t).ifrmchk a b c =
      if ∃ f ∈ l, a = f.i ∧ b = f.i ∧ c = f.j then 1 else t.ifrmchk a b c := by
  induction l using List.reverseRecOn with
  | nil => simp
  | append_singleton l x ih =>
    rw [List.foldl_append, List.foldl_cons, List.foldl_nil, if_congr (exists_mem_snoc ..) rfl rfl]
    simp only [fermiStep1, chkSet, ih]
    by_cases h : a = x.i ∧ b = x.i ∧ c = x.j
    · rw [if_pos h, if_pos (.inr h)]
    · rw [if_neg h]
      exact if_congr (by simp only [h, or_false]) rfl rfl

theorem chk_fold2 (l : List Fermi2) (t : FermiChecks) (a b c : Nat) :
    (l.foldl fermiStep2 t).ifrmchk a b c =
      if ∃ f ∈ l, c = f.k ∧ (a = f.i ∧ b = f.j ∨ a = f.j ∧ b = f.i) then 1 else t.ifrmchk a b c := by
  induction l using List.reverseRecOn with
  | nil => simp
  | append_singleton l x ih =>
    rw [List.foldl_append, List.foldl_cons, List.foldl_nil, if_congr (exists_mem_snoc ..) rfl rfl]
    simp only [fermiStep2, chkSet, ih]
    by_cases h : c = x.k ∧ (a = x.i ∧ b = x.j ∨ a = x.j ∧ b = x.i)
    · rw [if_pos (show (∃ f ∈ l, _) ∨ _ from .inr h)]
      obtain ⟨h1, (h2 | h2)⟩ := h
      · split
        · rfl
        · rw [if_pos ⟨h2.1, h2.2, h1⟩]
      · rw [if_pos ⟨h2.1, h2.2, h1⟩]
    · rw [if_neg (fun e => h ⟨e.2.2, .inr ⟨e.1, e.2.1⟩⟩), if_neg (fun e => h ⟨e.2.2, .inl ⟨e.1, e.2.1⟩⟩)]
      exact if_congr (by simp only [h, or_false]) rfl rfl

/-- The axis found for a pair is the axis of a listed resonance of that pair. -/
theorem icorol_listed {cs : List Coriolis} {i j x : Nat} (h : makeIcorol cs (i, j) = some x) :
    (⟨i, j, x⟩ : Coriolis) ∈ cs ∨ (⟨j, i, x⟩ : Coriolis) ∈ cs := by
  unfold makeIcorol at h
  induction cs using List.reverseRecOn with
  | nil => simp [HMap.empty] at h
  | append_singleton l c ih =>
    obtain ⟨ci, cj, cx⟩ := c
    rw [List.foldl_append, List.foldl_cons, List.foldl_nil] at h
    simp only [HMap.insert, Prod.mk.injEq] at h
    simp only [List.mem_append, List.mem_singleton, Coriolis.mk.injEq]
    split at h
    · next e =>
      obtain ⟨rfl, rfl⟩ := e
      exact .inr (.inr ⟨rfl, rfl, (Option.some.inj h).symm⟩)
    · split at h
      · next e =>
        obtain ⟨rfl, rfl⟩ := e
        exact .inl (.inr ⟨rfl, rfl, (Option.some.inj h).symm⟩)
      · rcases ih h with h | h
        · exact .inl (.inl h)
        · exact .inr (.inl h)

/-- A pair with a listed resonance has some axis. -/
theorem icorol_some {cs : List Coriolis} {i j : Nat}
    (h : ∃ x, (⟨i, j, x⟩ : Coriolis) ∈ cs ∨ (⟨j, i, x⟩ : Coriolis) ∈ cs) :
    ∃ x, makeIcorol cs (i, j) = some x := by
  unfold makeIcorol
  induction cs using List.reverseRecOn with
  | nil => simp at h
  | append_singleton l c ih =>
    obtain ⟨ci, cj, cx⟩ := c
    rw [List.foldl_append, List.foldl_cons, List.foldl_nil]
    simp only [HMap.insert, Prod.mk.injEq]
    split
    · exact ⟨_, rfl⟩
    · next h1 =>
      split
      · exact ⟨_, rfl⟩
      · next h2 =>
        apply ih
        obtain ⟨x, hx⟩ := h
        refine ⟨x, ?_⟩
        simp only [List.mem_append, List.mem_singleton, Coriolis.mk.injEq] at hx
        rcases hx with (hx | hx) | (hx | hx)
        · exact .inl hx
        · exact absurd ⟨hx.1, hx.2.1⟩ h2
        · exact .inr hx
        · exact absurd ⟨hx.2.1, hx.1⟩ h1

theorem icorol_symm (cs : List Coriolis) (i j : Nat) : makeIcorol cs (i, j) = makeIcorol cs (j, i) := by
  unfold makeIcorol
  induction cs using List.reverseRecOn with
  | nil => rfl
  | append_singleton l c ih =>
    obtain ⟨ci, cj, cx⟩ := c
    rw [List.foldl_append, List.foldl_cons, List.foldl_nil]
    simp only [HMap.insert, Prod.mk.injEq, ih]
    by_cases h1 : i = cj ∧ j = ci <;> by_cases h2 : i = ci ∧ j = cj <;> simp [h1, h2] <;> grind

/-- With one axis per pair the lookup says exactly what is listed. -/
theorem icorol_iff {cs : List Coriolis} {i j : Nat} (x : Nat)
    (huniq : ∀ x y, ((⟨i, j, x⟩ : Coriolis) ∈ cs ∨ (⟨j, i, x⟩ : Coriolis) ∈ cs) →
      ((⟨i, j, y⟩ : Coriolis) ∈ cs ∨ (⟨j, i, y⟩ : Coriolis) ∈ cs) → x = y) :
    makeIcorol cs (i, j) = some x ↔ (⟨i, j, x⟩ : Coriolis) ∈ cs ∨ (⟨j, i, x⟩ : Coriolis) ∈ cs := by
  refine ⟨icorol_listed, fun h => ?_⟩
  obtain ⟨y, hy⟩ := icorol_some ⟨x, h⟩
  rw [hy, huniq y x (icorol_listed hy) h]

end Verif
