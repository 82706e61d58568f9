import Verif.Model.Xcals
import Verif.Lemmas.Xcalc
import Verif.Lemmas.Mode
import Verif.Spec.Xcals

/-! Lemmas for the anharmonic constants of symmetric tops. -/

namespace Verif

section
variable {α : Type}

/-- The unordered pairs are the same. -/
def upair (a b c d : Nat) : Prop := (a = c ∧ b = d) ∨ (a = d ∧ b = c)

instance (a b c d : Nat) : Decidable (upair a b c d) := inferInstanceAs (Decidable (_ ∨ _))

theorem setSym_apply (x : Mat α) (i j : Nat) (v : α) (a b : Nat) :
    setSym x i j v a b = if upair i j a b then v else x a b := by
  unfold setSym Mat.set
  by_cases h1 : a = j ∧ b = i
  · rw [if_pos h1, if_pos (show upair i j a b from .inr ⟨h1.2.symm, h1.1.symm⟩)]
  · rw [if_neg h1]
    by_cases h2 : a = i ∧ b = j
    · rw [if_pos h2, if_pos (show upair i j a b from .inl ⟨h2.1.symm, h2.2.symm⟩)]
    · rw [if_neg h2, if_neg]
      rintro (⟨h, h'⟩ | ⟨h, h'⟩)
      · exact h2 ⟨h.symm, h'.symm⟩
      · exact h1 ⟨h'.symm, h.symm⟩

theorem setSym_inv (x : Mat α) (i j : Nat) (v : α) (h : ∀ a b, x a b = x b a) :
    ∀ a b, setSym x i j v a b = setSym x i j v b a := set_sym_inv x i j v h

theorem setDiag_inv (x : Mat α) (i : Nat) (v : α) (h : ∀ a b, x a b = x b a) :
    ∀ a b, Mat.set x i i v a b = Mat.set x i i v b a := by
  intro a b
  unfold Mat.set
  by_cases h1 : a = i ∧ b = i
  · rw [if_pos h1, if_pos ⟨h1.2, h1.1⟩]
  · rw [if_neg h1, if_neg (fun c => h1 ⟨c.2, c.1⟩), h a b]

end

section
variable {α : Type} [Arith α]

/-- All mode numbers, first and second components, are different. -/
def DistinctModes (i1 : List Nat) (i2 : List (Nat × Nat)) : Prop :=
  (i1 ++ i2.map (·.1) ++ i2.map (·.2)).Nodup

theorem getD_inj {l : List Nat} (h : l.Nodup) {p q : Nat} (hp : p < l.length) (hq : q < l.length) :
    l.getD p 0 = l.getD q 0 ↔ p = q := by
  rw [List.getD_eq_getElem?_getD, List.getD_eq_getElem?_getD, List.getElem?_eq_getElem hp,
    List.getElem?_eq_getElem hq]
  exact h.getElem_inj_iff

/-- Values written by a loop of symmetric writes. -/
theorem foldl_setSym_hit {X : Type} (L : List X) (f g : X → Nat) (v : X → α) (x : Mat α) (a b : Nat) (w : α)
    (hv : ∀ p ∈ L, upair (f p) (g p) a b → v p = w) (hex : ∃ p ∈ L, upair (f p) (g p) a b) :
    L.foldl (fun x p => setSym x (f p) (g p) (v p)) x a b = w :=
  foldl_write_eq (fun x : Mat α => x a b) (fun p => upair (f p) (g p) a b) v
    (fun x p => setSym x (f p) (g p) (v p)) (fun t p => setSym_apply t _ _ _ _ _) L x w hv hex

theorem foldl_setSym_miss {X : Type} (L : List X) (f g : X → Nat) (v : X → α) (x : Mat α) (a b : Nat)
    (hn : ∀ p ∈ L, ¬ upair (f p) (g p) a b) :
    L.foldl (fun x p => setSym x (f p) (g p) (v p)) x a b = x a b :=
  foldl_write_ne (fun x : Mat α => x a b) (fun p => upair (f p) (g p) a b) v
    (fun x p => setSym x (f p) (g p) (v p)) (fun t p => setSym_apply t _ _ _ _ _) L x hn

theorem setSym2_apply (x : Mat α) (i j i' j' : Nat) (v : α) (a b : Nat) :
    setSym (setSym x i j v) i' j' v a b = if upair i j a b ∨ upair i' j' a b then v else x a b := by
  rw [setSym_apply, setSym_apply]
  by_cases h1 : upair i' j' a b
  · rw [if_pos h1, if_pos (.inr h1)]
  · rw [if_neg h1]
    by_cases h2 : upair i j a b
    · rw [if_pos h2, if_pos (.inl h2)]
    · rw [if_neg h2, if_neg (by tauto)]

theorem foldl_setSym2_hit {X : Type} (L : List X) (f g f' g' : X → Nat) (v : X → α) (x : Mat α) (a b : Nat) (w : α)
    (hv : ∀ p ∈ L, (upair (f p) (g p) a b ∨ upair (f' p) (g' p) a b) → v p = w)
    (hex : ∃ p ∈ L, upair (f p) (g p) a b ∨ upair (f' p) (g' p) a b) :
    L.foldl (fun x p => setSym (setSym x (f p) (g p) (v p)) (f' p) (g' p) (v p)) x a b = w :=
  foldl_write_eq (fun x : Mat α => x a b) (fun p => upair (f p) (g p) a b ∨ upair (f' p) (g' p) a b) v
    (fun x p => setSym (setSym x (f p) (g p) (v p)) (f' p) (g' p) (v p))
    (fun t p => setSym2_apply t _ _ _ _ _ _ _) L x w hv hex

theorem foldl_setSym2_miss {X : Type} (L : List X) (f g f' g' : X → Nat) (v : X → α) (x : Mat α) (a b : Nat)
    (hn : ∀ p ∈ L, ¬ (upair (f p) (g p) a b ∨ upair (f' p) (g' p) a b)) :
    L.foldl (fun x p => setSym (setSym x (f p) (g p) (v p)) (f' p) (g' p) (v p)) x a b = x a b :=
  foldl_write_ne (fun x : Mat α => x a b) (fun p => upair (f p) (g p) a b ∨ upair (f' p) (g' p) a b) v
    (fun x p => setSym (setSym x (f p) (g p) (v p)) (f' p) (g' p) (v p))
    (fun t p => setSym2_apply t _ _ _ _ _ _ _) L x hn

theorem set_diag_eq (x : Mat α) (i : Nat) (v : α) : Mat.set x i i v = setSym x i i v := by
  funext a b
  rw [setSym_apply]
  unfold Mat.set
  by_cases h : a = i ∧ b = i
  · rw [if_pos h, if_pos (show upair i i a b from .inl ⟨h.1.symm, h.2.symm⟩)]
  · rw [if_neg h, if_neg]
    rintro (⟨h1, h2⟩ | ⟨h1, h2⟩)
    · exact h ⟨h1.symm, h2.symm⟩
    · exact h ⟨h2.symm, h1.symm⟩

variable {i1 : List Nat} {i2 : List (Nat × Nat)}

theorem DistinctModes.d1 (h : DistinctModes i1 i2) : i1.Nodup :=
  (List.nodup_append.1 (List.nodup_append.1 h).1).1
theorem DistinctModes.d2 (h : DistinctModes i1 i2) : (i2.map (·.1)).Nodup :=
  (List.nodup_append.1 (List.nodup_append.1 h).1).2.1
theorem DistinctModes.d3 (h : DistinctModes i1 i2) : (i2.map (·.2)).Nodup :=
  (List.nodup_append.1 h).2.1
theorem DistinctModes.d12 (h : DistinctModes i1 i2) {k : Nat} {p : Nat × Nat} (hk : k ∈ i1) (hp : p ∈ i2) :
    k ≠ p.1 :=
  (List.nodup_append.1 (List.nodup_append.1 h).1).2.2 k hk _ (List.mem_map_of_mem hp)
theorem DistinctModes.d13 (h : DistinctModes i1 i2) {k : Nat} {p : Nat × Nat} (hk : k ∈ i1) (hp : p ∈ i2) :
    k ≠ p.2 :=
  (List.nodup_append.1 h).2.2 k (by simp [hk]) _ (List.mem_map_of_mem hp)
theorem DistinctModes.d23 (h : DistinctModes i1 i2) {p q : Nat × Nat} (hp : p ∈ i2) (hq : q ∈ i2) :
    p.1 ≠ q.2 :=
  (List.nodup_append.1 h).2.2 p.1 (by
    rw [List.mem_append]; exact .inr (List.mem_map_of_mem hp)) _ (List.mem_map_of_mem hq)
theorem DistinctModes.inj1 (h : DistinctModes i1 i2) {p q : Nat × Nat} (hp : p ∈ i2) (hq : q ∈ i2)
    (e : p.1 = q.1) : p = q := List.inj_on_of_nodup_map h.d2 hp hq e
theorem DistinctModes.inj2 (h : DistinctModes i1 i2) {p q : Nat × Nat} (hp : p ∈ i2) (hq : q ∈ i2)
    (e : p.2 = q.2) : p = q := List.inj_on_of_nodup_map h.d3 hp hq e

theorem getD_mem' {β : Type} {l : List β} {p : Nat} (d : β) (h : p < l.length) : l.getD p d ∈ l := by
  rw [List.getD_eq_getElem?_getD, List.getElem?_eq_getElem h]; simp

theorem getD_inj2 (h : DistinctModes i1 i2) {p q : Nat} (hp : p < i2.length) (hq : q < i2.length)
    (e : i2.getD p (0, 0) = i2.getD q (0, 0)) : p = q := by
  rw [List.getD_eq_getElem?_getD, List.getD_eq_getElem?_getD, List.getElem?_eq_getElem hp,
    List.getElem?_eq_getElem hq] at e
  exact (h.d2.of_map).getElem_inj_iff.1 e

theorem nn_diag (rotor : Rotor) (f4 : T4 α) (f3 : T3 α) (freq : Vec α) (t : FermiChecks) (rotcon : Vec α)
    (ia : Nat) (zmat : T3 α) (x y : Mat α) (h1 : i1.Nodup)
    (h : nondegNondeg rotor i1 f4 f3 freq t rotcon ia zmat x = some y) (k : Nat) (hk : k ∈ i1) :
    y k k = nnDiag i1 f4 f3 freq t.ifrm1 k := by
  unfold nondegNondeg at h
  dsimp only at h
  split at h
  · cases h
  · obtain rfl := Option.some.inj h
    refine (foldl_setSym_miss (lowPairs i1.length) (fun p => i1.getD p.1 0) (fun p => i1.getD p.2 0)
      (fun p => nnOff i1 f4 f3 freq t.ifrm2 rotcon ia zmat (i1.getD p.1 0) (i1.getD p.2 0)) _ k k ?_).trans ?_
    · rintro ⟨p, q⟩ hp hu
      rw [mem_lowPairs] at hp
      have : i1.getD p 0 = i1.getD q 0 := by
        rcases hu with ⟨a, b⟩ | ⟨a, b⟩ <;> exact a.trans b.symm
      have := (getD_inj h1 (by omega) (by omega)).1 this
      omega
    · simp only [set_diag_eq]
      apply foldl_setSym_hit
      · rintro p _ (⟨rfl, _⟩ | ⟨rfl, _⟩) <;> rfl
      · exact ⟨k, hk, .inl ⟨rfl, rfl⟩⟩

theorem nn_off (rotor : Rotor) (f4 : T4 α) (f3 : T3 α) (freq : Vec α) (t : FermiChecks) (rotcon : Vec α)
    (ia : Nat) (zmat : T3 α) (x y : Mat α) (h1 : i1.Nodup)
    (h : nondegNondeg rotor i1 f4 f3 freq t rotcon ia zmat x = some y) (p q : Nat) (hq : q < p)
    (hp : p < i1.length) :
    y (i1.getD p 0) (i1.getD q 0) =
      nnOff i1 f4 f3 freq t.ifrm2 rotcon ia zmat (i1.getD p 0) (i1.getD q 0) := by
  unfold nondegNondeg at h
  dsimp only at h
  split at h
  · cases h
  · obtain rfl := Option.some.inj h
    apply foldl_setSym_hit (lowPairs i1.length) (fun p => i1.getD p.1 0) (fun p => i1.getD p.2 0)
      (fun p => nnOff i1 f4 f3 freq t.ifrm2 rotcon ia zmat (i1.getD p.1 0) (i1.getD p.2 0))
    · rintro ⟨p', q'⟩ hp' hu
      rw [mem_lowPairs] at hp'
      rcases hu with ⟨a, b⟩ | ⟨a, b⟩ <;> simp only at a b
      · simp only [a, b]
      · have a' := (getD_inj h1 (by omega) (by omega)).1 a
        have b' := (getD_inj h1 (by omega) (by omega)).1 b
        omega
    · exact ⟨(p, q), (mem_lowPairs _ _ _).2 ⟨hq, hp⟩, .inl ⟨rfl, rfl⟩⟩

theorem nd_hit (f4 : T4 α) (f3 : T3 α) (freq : Vec α) (ifrm2 : Ifrm2) (rotcon : Vec α)
    (ib : Nat) (zmat : T3 α) (x : Mat α) (hd : DistinctModes i1 i2) (k : Nat) (hk : k ∈ i1)
    (p : Nat × Nat) (hp : p ∈ i2) :
    nondegDeg i1 i2 f4 f3 freq ifrm2 rotcon ib zmat x k p.1 =
      ndOff i1 i2 f4 f3 freq ifrm2 rotcon ib zmat k p.1 ∧
    nondegDeg i1 i2 f4 f3 freq ifrm2 rotcon ib zmat x k p.2 =
      ndOff i1 i2 f4 f3 freq ifrm2 rotcon ib zmat k p.1 := by
  constructor
  · apply foldl_setSym2_hit _ (fun q : Nat × Nat × Nat => q.1) (fun q => q.2.1) (fun q => q.1) (fun q => q.2.2)
      (fun q => ndOff i1 i2 f4 f3 freq ifrm2 rotcon ib zmat q.1 q.2.1)
    · rintro ⟨k', p'⟩ hm hu
      simp only [List.mem_flatMap, List.mem_map, Prod.mk.injEq] at hm
      obtain ⟨_, hk', _, hp', rfl, rfl⟩ := hm
      rcases hu with (⟨a, b⟩ | ⟨a, b⟩) | (⟨a, b⟩ | ⟨a, b⟩) <;> simp only at a b
      · rw [a, b]
      · exact absurd a (hd.d12 hk' hp)
      · exact absurd b.symm (hd.d23 hp hp')
      · exact absurd a (hd.d12 hk' hp)
    · exact ⟨(k, p), by simp; exact ⟨hk, hp⟩, .inl (.inl ⟨rfl, rfl⟩)⟩
  · apply foldl_setSym2_hit _ (fun q : Nat × Nat × Nat => q.1) (fun q => q.2.1) (fun q => q.1) (fun q => q.2.2)
      (fun q => ndOff i1 i2 f4 f3 freq ifrm2 rotcon ib zmat q.1 q.2.1)
    · rintro ⟨k', p'⟩ hm hu
      simp only [List.mem_flatMap, List.mem_map, Prod.mk.injEq] at hm
      obtain ⟨_, hk', _, hp', rfl, rfl⟩ := hm
      rcases hu with (⟨a, b⟩ | ⟨a, b⟩) | (⟨a, b⟩ | ⟨a, b⟩) <;> simp only at a b
      · exact absurd b (hd.d23 hp' hp)
      · exact absurd a (hd.d13 hk' hp)
      · rw [a, hd.inj2 hp' hp b]
      · exact absurd a (hd.d13 hk' hp)
    · exact ⟨(k, p), by simp; exact ⟨hk, hp⟩, .inr (.inl ⟨rfl, rfl⟩)⟩

theorem nd_miss (f4 : T4 α) (f3 : T3 α) (freq : Vec α) (ifrm2 : Ifrm2) (rotcon : Vec α)
    (ib : Nat) (zmat : T3 α) (x : Mat α) (hd : DistinctModes i1 i2) (a b : Nat) (ha : a ∈ i1) (hb : b ∈ i1) :
    nondegDeg i1 i2 f4 f3 freq ifrm2 rotcon ib zmat x a b = x a b := by
  apply foldl_setSym2_miss _ (fun q : Nat × Nat × Nat => q.1) (fun q => q.2.1) (fun q => q.1) (fun q => q.2.2)
      (fun q => ndOff i1 i2 f4 f3 freq ifrm2 rotcon ib zmat q.1 q.2.1)
  rintro ⟨k', p'⟩ hm hu
  simp only [List.mem_flatMap, List.mem_map, Prod.mk.injEq] at hm
  obtain ⟨_, hk', _, hp', rfl, rfl⟩ := hm
  rcases hu with (⟨a', b'⟩ | ⟨a', b'⟩) | (⟨a', b'⟩ | ⟨a', b'⟩) <;> simp only at a' b'
  · exact hd.d12 hb hp' b'.symm
  · exact hd.d12 ha hp' b'.symm
  · exact hd.d13 hb hp' b'.symm
  · exact hd.d13 ha hp' b'.symm

/-- What a diagonal stage followed by an off-diagonal stage over the degenerate pairs writes. -/
theorem dd_stage (hd : DistinctModes i1 i2) (dv : Nat × Nat → α) (ov : Nat × Nat → Nat × Nat → α) (x : Mat α) :
    let y := (lowPairs i2.length).foldl (fun x p =>
        setSym (setSym x (i2.getD p.1 (0, 0)).1 (i2.getD p.2 (0, 0)).1 (ov (i2.getD p.1 (0, 0)) (i2.getD p.2 (0, 0))))
          (i2.getD p.1 (0, 0)).2 (i2.getD p.2 (0, 0)).2 (ov (i2.getD p.1 (0, 0)) (i2.getD p.2 (0, 0))))
      (i2.foldl (fun x p => Mat.set (Mat.set x p.1 p.1 (dv p)) p.2 p.2 (dv p)) x)
    (∀ p ∈ i2, y p.1 p.1 = dv p ∧ y p.2 p.2 = dv p) ∧
    (∀ p q, q < p → p < i2.length → ∀ k l, i2.getD p (0, 0) = k → i2.getD q (0, 0) = l →
      y k.1 l.1 = ov k l ∧ y k.2 l.2 = ov k l) ∧
    (∀ a ∈ i1, ∀ b, y a b = x a b) := by
  intro y
  have low : ∀ r ∈ lowPairs i2.length, i2.getD r.1 (0, 0) ∈ i2 ∧ i2.getD r.2 (0, 0) ∈ i2 ∧
      i2.getD r.1 (0, 0) ≠ i2.getD r.2 (0, 0) := by
    rintro ⟨p, q⟩ hp
    rw [mem_lowPairs] at hp
    exact ⟨getD_mem' _ (by omega), getD_mem' _ (by omega), fun e => by
      have := getD_inj2 hd (by omega) (by omega) e; omega⟩
  refine ⟨?_, ?_, ?_⟩
  · intro p hp
    have miss : ∀ c, (c = p.1 ∨ c = p.2) → y c c =
        (i2.foldl (fun x p => Mat.set (Mat.set x p.1 p.1 (dv p)) p.2 p.2 (dv p)) x) c c := by
      intro c hc
      apply foldl_setSym2_miss (lowPairs i2.length) (fun r => (i2.getD r.1 (0, 0)).1) (fun r => (i2.getD r.2 (0, 0)).1)
        (fun r => (i2.getD r.1 (0, 0)).2) (fun r => (i2.getD r.2 (0, 0)).2)
        (fun r => ov (i2.getD r.1 (0, 0)) (i2.getD r.2 (0, 0)))
      intro r hr hu
      obtain ⟨m1, m2, ne⟩ := low r hr
      rcases hu with hu | hu
      · exact ne (hd.inj1 m1 m2 (by rcases hu with ⟨a, b⟩ | ⟨a, b⟩ <;> exact a.trans b.symm))
      · exact ne (hd.inj2 m1 m2 (by rcases hu with ⟨a, b⟩ | ⟨a, b⟩ <;> exact a.trans b.symm))
    have hit : ∀ c, (c = p.1 ∨ c = p.2) →
        (i2.foldl (fun x p => Mat.set (Mat.set x p.1 p.1 (dv p)) p.2 p.2 (dv p)) x) c c = dv p := by
      intro c hc
      simp only [set_diag_eq]
      apply foldl_setSym2_hit i2 (fun r => r.1) (fun r => r.1) (fun r => r.2) (fun r => r.2) dv
      · intro r hr hu
        have hc' : r.1 = c ∨ r.2 = c := by
          rcases hu with (⟨a, -⟩ | ⟨a, -⟩) | (⟨a, -⟩ | ⟨a, -⟩)
          · exact .inl a
          · exact .inl a
          · exact .inr a
          · exact .inr a
        rcases hc with rfl | rfl <;> rcases hc' with e | e
        · rw [hd.inj1 hr hp e]
        · exact absurd e.symm (hd.d23 hp hr)
        · exact absurd e (hd.d23 hr hp)
        · rw [hd.inj2 hr hp e]
      · rcases hc with rfl | rfl
        · exact ⟨p, hp, .inl (.inl ⟨rfl, rfl⟩)⟩
        · exact ⟨p, hp, .inr (.inl ⟨rfl, rfl⟩)⟩
    exact ⟨(miss _ (.inl rfl)).trans (hit _ (.inl rfl)), (miss _ (.inr rfl)).trans (hit _ (.inr rfl))⟩
  · rintro p q hq hp k l rfl rfl
    have m1 : i2.getD p (0, 0) ∈ i2 := getD_mem' _ hp
    have m2 : i2.getD q (0, 0) ∈ i2 := getD_mem' _ (by omega)
    constructor
    · apply foldl_setSym2_hit (lowPairs i2.length) (fun r => (i2.getD r.1 (0, 0)).1)
        (fun r => (i2.getD r.2 (0, 0)).1)
        (fun r => (i2.getD r.1 (0, 0)).2) (fun r => (i2.getD r.2 (0, 0)).2)
        (fun r => ov (i2.getD r.1 (0, 0)) (i2.getD r.2 (0, 0)))
      · rintro ⟨p', q'⟩ hr hu
        obtain ⟨n1, n2, ne⟩ := low _ hr
        rw [mem_lowPairs] at hr
        rcases hu with (⟨a, b⟩ | ⟨a, b⟩) | (⟨a, b⟩ | ⟨a, b⟩)
        · dsimp only; rw [hd.inj1 n1 m1 a, hd.inj1 n2 m2 b]
        · have a' := getD_inj2 hd (by omega) (by omega) (hd.inj1 n1 m2 a)
          have b' := getD_inj2 hd (by omega) (by omega) (hd.inj1 n2 m1 b)
          dsimp only at a' b'
          omega
        · exact absurd a.symm (hd.d23 m1 n1)
        · exact absurd a.symm (hd.d23 m2 n1)
      · exact ⟨(p, q), (mem_lowPairs _ _ _).2 ⟨hq, hp⟩, .inl (.inl ⟨rfl, rfl⟩)⟩
    · apply foldl_setSym2_hit (lowPairs i2.length) (fun r => (i2.getD r.1 (0, 0)).1)
        (fun r => (i2.getD r.2 (0, 0)).1)
        (fun r => (i2.getD r.1 (0, 0)).2) (fun r => (i2.getD r.2 (0, 0)).2)
        (fun r => ov (i2.getD r.1 (0, 0)) (i2.getD r.2 (0, 0)))
      · rintro ⟨p', q'⟩ hr hu
        obtain ⟨n1, n2, ne⟩ := low _ hr
        rw [mem_lowPairs] at hr
        rcases hu with (⟨a, b⟩ | ⟨a, b⟩) | (⟨a, b⟩ | ⟨a, b⟩)
        · exact absurd a (hd.d23 n1 m1)
        · exact absurd a (hd.d23 n1 m2)
        · dsimp only; rw [hd.inj2 n1 m1 a, hd.inj2 n2 m2 b]
        · have a' := getD_inj2 hd (by omega) (by omega) (hd.inj2 n1 m2 a)
          have b' := getD_inj2 hd (by omega) (by omega) (hd.inj2 n2 m1 b)
          dsimp only at a' b'
          omega
      · exact ⟨(p, q), (mem_lowPairs _ _ _).2 ⟨hq, hp⟩, .inr (.inl ⟨rfl, rfl⟩)⟩
  · intro a ha b
    refine (foldl_setSym2_miss (lowPairs i2.length) (fun r => (i2.getD r.1 (0, 0)).1)
        (fun r => (i2.getD r.2 (0, 0)).1)
        (fun r => (i2.getD r.1 (0, 0)).2) (fun r => (i2.getD r.2 (0, 0)).2)
        (fun r => ov (i2.getD r.1 (0, 0)) (i2.getD r.2 (0, 0))) _ a b ?_).trans ?_
    · intro r hr hu
      obtain ⟨n1, n2, -⟩ := low _ hr
      rcases hu with (⟨c, d⟩ | ⟨c, d⟩) | (⟨c, d⟩ | ⟨c, d⟩)
      · exact hd.d12 ha n1 c.symm
      · exact hd.d12 ha n2 d.symm
      · exact hd.d13 ha n1 c.symm
      · exact hd.d13 ha n2 d.symm
    · simp only [set_diag_eq]
      apply foldl_setSym2_miss i2 (fun r => r.1) (fun r => r.1) (fun r => r.2) (fun r => r.2) dv
      intro r hr hu
      rcases hu with (⟨c, d⟩ | ⟨c, d⟩) | (⟨c, d⟩ | ⟨c, d⟩)
      · exact hd.d12 ha hr c.symm
      · exact hd.d12 ha hr d.symm
      · exact hd.d13 ha hr c.symm
      · exact hd.d13 ha hr d.symm

omit [Arith α] in
theorem modeNumbers_perm (modes : List Mode) : (modeNumbers modes).Perm
    (nonDeg modes ++ (degPairs modes).map (·.1) ++ (degPairs modes).map (·.2)) := by
  induction modes with
  | nil => exact List.Perm.nil
  | cons m modes ih =>
    cases m with
    | i1 i => exact List.Perm.cons i ih
    | i2 i j =>
      show (i :: j :: modeNumbers modes).Perm
        (nonDeg modes ++ i :: (degPairs modes).map (·.1) ++ j :: (degPairs modes).map (·.2))
      refine List.Perm.trans (List.Perm.cons i (List.Perm.trans (List.Perm.cons j ih)
        List.perm_middle.symm)) ?_
      rw [List.append_assoc, List.append_assoc]
      exact List.perm_middle.symm
    | i3 i j k => exact ih

omit [Arith α] in
theorem distinct_of_modes (modes : List Mode) (h : (modeNumbers modes).Nodup) :
    DistinctModes (nonDeg modes) (degPairs modes) := (modeNumbers_perm modes).nodup_iff.1 h

omit [Arith α] in
theorem part_nonDeg (modes : List Mode) : (Mode.partition modes).1 = nonDeg modes := by
  rw [partition_eq]; rfl

omit [Arith α] in
theorem part_degPairs (modes : List Mode) : (Mode.partition modes).2.1 = degPairs modes := by
  rw [partition_eq]; rfl

omit [Arith α] in
theorem mem_nonDeg {modes : List Mode} {k : Nat} : k ∈ nonDeg modes ↔ .i1 k ∈ modes := by
  simp only [nonDeg, List.mem_filterMap]
  constructor
  · rintro ⟨m, hm, h⟩
    cases m <;> simp at h
    subst h; exact hm
  · intro h; exact ⟨_, h, rfl⟩

omit [Arith α] in
theorem mem_degPairs {modes : List Mode} {p : Nat × Nat} : p ∈ degPairs modes ↔ .i2 p.1 p.2 ∈ modes := by
  simp only [degPairs, List.mem_filterMap]
  constructor
  · rintro ⟨m, hm, h⟩
    cases m <;> simp at h
    subst h; exact hm
  · intro h; exact ⟨_, h, rfl⟩

/-- Every block of the matrices computed by `xcals`. -/
theorem xcals_entries (rotor : Rotor) (f4 : T4 α) (freq : Vec α) (f3 zmat : T3 α) (rotcon : Vec α)
    (fermi1 : List Fermi1) (fermi2 : List Fermi2) (modes : List Mode) (wila : Mat α) (x g : Mat α) (e0 : α)
    (h : xcals rotor f4 freq f3 zmat rotcon fermi1 fermi2 modes wila = some (x, g, e0))
    (hi1 : (Mode.partition modes).1 = i1) (hi2 : (Mode.partition modes).2.1 = i2)
    (hd : DistinctModes i1 i2) :
    let t := makeFermiChecks fermi1 fermi2
    let ixyz := xcalsIxyz rotor i2 wila
    (∀ k ∈ i1, x k k = nnDiag i1 f4 f3 freq t.ifrm1 k) ∧
    (∀ p q, q < p → p < i1.length → ∀ k l, i1.getD p 0 = k → i1.getD q 0 = l →
      x k l = nnOff i1 f4 f3 freq t.ifrm2 rotcon 2 zmat k l) ∧
    (∀ k ∈ i1, ∀ p ∈ i2, x k p.1 = ndOff i1 i2 f4 f3 freq t.ifrm2 rotcon 1 zmat k p.1 ∧
      x k p.2 = ndOff i1 i2 f4 f3 freq t.ifrm2 rotcon 1 zmat k p.1) ∧
    (∀ p ∈ i2, x p.1 p.1 = ddDiag i1 i2 f4 f3 freq t.ifrm1 p.1 ∧
      x p.2 p.2 = ddDiag i1 i2 f4 f3 freq t.ifrm1 p.1) ∧
    (∀ p q, q < p → p < i2.length → ∀ k l, i2.getD p (0, 0) = k → i2.getD q (0, 0) = l →
      x k.1 l.1 = ddOff i1 i2 f4 f3 freq t.ifrm2 rotcon 2 1 ixyz zmat k.1 l.1 l.2 ∧
      x k.2 l.2 = ddOff i1 i2 f4 f3 freq t.ifrm2 rotcon 2 1 ixyz zmat k.1 l.1 l.2) ∧
    (∀ p ∈ i2, g p.1 p.1 = gDiag i1 i2 f4 f3 freq t.ifrm1 rotcon 2 zmat p.1 p.2 ∧
      g p.2 p.2 = gDiag i1 i2 f4 f3 freq t.ifrm1 rotcon 2 zmat p.1 p.2) ∧
    (∀ p q, q < p → p < i2.length → ∀ k l, i2.getD p (0, 0) = k → i2.getD q (0, 0) = l →
      g k.1 l.1 = gOff i1 i2 f3 freq t.ifrm2 rotcon 2 1 ixyz zmat k.1 k.2 l.1 l.2 ∧
      g k.2 l.2 = gOff i1 i2 f3 freq t.ifrm2 rotcon 2 1 ixyz zmat k.1 k.2 l.1 l.2) := by
  intro t ixyz
  dsimp only [xcals] at h
  rw [hi1, hi2] at h
  obtain ⟨y, hy, h⟩ := Option.map_eq_some_iff.1 h
  simp only [Prod.mk.injEq] at h
  obtain ⟨hx, hg, -⟩ := h
  have sx := dd_stage hd (fun p => ddDiag i1 i2 f4 f3 freq t.ifrm1 p.1)
    (fun k l => ddOff i1 i2 f4 f3 freq t.ifrm2 rotcon 2 1 ixyz zmat k.1 l.1 l.2)
    (nondegDeg i1 i2 f4 f3 freq t.ifrm2 rotcon 1 zmat y)
  have sg := dd_stage hd (fun p => gDiag i1 i2 f4 f3 freq t.ifrm1 rotcon 2 zmat p.1 p.2)
    (fun k l => gOff i1 i2 f3 freq t.ifrm2 rotcon 2 1 ixyz zmat k.1 k.2 l.1 l.2) (fun _ _ => Arith.lit 0)
  dsimp only at sx sg
  have ex : (lowPairs i2.length).foldl (fun x p =>
        setSym (setSym x (i2.getD p.1 (0, 0)).1 (i2.getD p.2 (0, 0)).1
            (ddOff i1 i2 f4 f3 freq t.ifrm2 rotcon 2 1 ixyz zmat (i2.getD p.1 (0, 0)).1
              (i2.getD p.2 (0, 0)).1 (i2.getD p.2 (0, 0)).2))
          (i2.getD p.1 (0, 0)).2 (i2.getD p.2 (0, 0)).2
            (ddOff i1 i2 f4 f3 freq t.ifrm2 rotcon 2 1 ixyz zmat (i2.getD p.1 (0, 0)).1
              (i2.getD p.2 (0, 0)).1 (i2.getD p.2 (0, 0)).2))
      (i2.foldl (fun x p => Mat.set (Mat.set x p.1 p.1 (ddDiag i1 i2 f4 f3 freq t.ifrm1 p.1)) p.2 p.2
        (ddDiag i1 i2 f4 f3 freq t.ifrm1 p.1))
        (nondegDeg i1 i2 f4 f3 freq t.ifrm2 rotcon 1 zmat y)) = x := hx
  have eg : (lowPairs i2.length).foldl (fun x p =>
        setSym (setSym x (i2.getD p.1 (0, 0)).1 (i2.getD p.2 (0, 0)).1
            (gOff i1 i2 f3 freq t.ifrm2 rotcon 2 1 ixyz zmat (i2.getD p.1 (0, 0)).1 (i2.getD p.1 (0, 0)).2
              (i2.getD p.2 (0, 0)).1 (i2.getD p.2 (0, 0)).2))
          (i2.getD p.1 (0, 0)).2 (i2.getD p.2 (0, 0)).2
            (gOff i1 i2 f3 freq t.ifrm2 rotcon 2 1 ixyz zmat (i2.getD p.1 (0, 0)).1 (i2.getD p.1 (0, 0)).2
              (i2.getD p.2 (0, 0)).1 (i2.getD p.2 (0, 0)).2))
      (i2.foldl (fun x p => Mat.set (Mat.set x p.1 p.1 (gDiag i1 i2 f4 f3 freq t.ifrm1 rotcon 2 zmat p.1 p.2))
        p.2 p.2 (gDiag i1 i2 f4 f3 freq t.ifrm1 rotcon 2 zmat p.1 p.2))
        (fun _ _ => Arith.lit 0)) = g := hg
  rw [ex] at sx
  rw [eg] at sg
  obtain ⟨sx1, sx2, sx3⟩ := sx
  obtain ⟨sg1, sg2, -⟩ := sg
  refine ⟨?_, ?_, ?_, sx1, sx2, sg1, sg2⟩
  · intro k hk
    rw [sx3 k hk, nd_miss _ _ _ _ _ _ _ _ hd k k hk hk]
    exact nn_diag _ _ _ _ _ _ _ _ _ _ hd.d1 hy k hk
  · rintro p q hq hp k l rfl rfl
    have m1 : i1.getD p 0 ∈ i1 := getD_mem' _ hp
    have m2 : i1.getD q 0 ∈ i1 := getD_mem' _ (by omega)
    rw [sx3 _ m1, nd_miss _ _ _ _ _ _ _ _ hd _ _ m1 m2]
    exact nn_off _ _ _ _ _ _ _ _ _ _ hd.d1 hy p q hq hp
  · intro k hk p hp
    rw [sx3 k hk, sx3 k hk]
    exact nd_hit _ _ _ _ _ _ _ _ hd k hk p hp

end

section Tables

theorem exists_last_split {β : Type} (P : β → Prop) (L : List β) (h : ∃ x ∈ L, P x) :
    ∃ l₁ x l₂, L = l₁ ++ x :: l₂ ∧ P x ∧ ∀ y ∈ l₂, ¬ P y := by
  induction L using List.reverseRecOn with
  | nil => obtain ⟨x, hx, _⟩ := h; cases hx
  | append_singleton L x ih =>
    by_cases hx : P x
    · exact ⟨L, x, [], rfl, hx, by simp⟩
    · obtain ⟨y, hy, hp⟩ := h
      rw [List.mem_append, List.mem_singleton] at hy
      rcases hy with hy | rfl
      · obtain ⟨l₁, z, l₂, rfl, hz, hl⟩ := ih ⟨y, hy, hp⟩
        refine ⟨l₁, z, l₂ ++ [x], by simp, hz, ?_⟩
        intro u hu
        rw [List.mem_append, List.mem_singleton] at hu
        rcases hu with hu | rfl
        · exact hl u hu
        · exact hx
      · exact absurd hp hx

theorem ifrm2_listed {f1 : List Fermi1} {f2 : List Fermi2} {i j k : Nat}
    (h : (makeFermiChecks f1 f2).ifrm2.check (i, j) k = true) : Listed f1 f2 i j k := by
  rw [(c27_either _ _ _ _).2.1] at h
  rcases (c27_type2 f1 f2 i j k).1 h with ⟨l₁, l₂, rfl, -⟩ | ⟨-, rfl, l₁, l₂, rfl, -⟩
  · exact .inr (.inl (by simp))
  · exact .inl ⟨rfl, by simp⟩

theorem listed_swap {f1 : List Fermi1} {f2 : List Fermi2} {i j k : Nat} (h : Listed f1 f2 i j k) :
    Listed f1 f2 j i k := by
  rcases h with ⟨rfl, h⟩ | h | h
  · exact .inl ⟨rfl, h⟩
  · exact .inr (.inr h)
  · exact .inr (.inl h)

theorem ifrm2_either_listed {f1 : List Fermi1} {f2 : List Fermi2} {i j k : Nat}
    (h : (makeFermiChecks f1 f2).ifrm2.checkEither (i, j) k = true) : Listed f1 f2 i j k := by
  rcases (c27_either _ _ _ _).1.1 h with h | h
  · exact ifrm2_listed ((c27_either _ _ _ _).2.1.2 h)
  · exact listed_swap (ifrm2_listed ((c27_either _ _ _ _).2.1.2 h))

theorem ifrm1_listed {f1 : List Fermi1} {f2 : List Fermi2} {i j : Nat}
    (h : (makeFermiChecks f1 f2).ifrm1.check i j = true) : (⟨i, j⟩ : Fermi1) ∈ f1 := by
  have h' : (makeFermiChecks f1 f2).ifrm1 i = some j := by simpa [HMap.check] using h
  obtain ⟨l₁, l₂, rfl, -⟩ := (c27_type1 f1 f2 i j).1 h'
  simp

theorem ifrm1_check_of_unique {f1 : List Fermi1} {f2 : List Fermi2} {i j : Nat}
    (hm : (⟨i, j⟩ : Fermi1) ∈ f1) (hu : ∀ g ∈ f1, g.i = i → g.j = j) :
    (makeFermiChecks f1 f2).ifrm1.check i j = true := by
  have : (makeFermiChecks f1 f2).ifrm1 i = some j := by
    rw [c27_type1]
    obtain ⟨l₁, ⟨a, b⟩, l₂, rfl, hx, hl⟩ := exists_last_split (fun g : Fermi1 => g.i = i) f1 ⟨_, hm, rfl⟩
    dsimp only at hx
    subst hx
    have : b = j := hu ⟨a, b⟩ (by simp) rfl
    subst this
    exact ⟨l₁, l₂, rfl, hl⟩
  simp [HMap.check, this]

theorem ifrm2_check_of_unique {f1 : List Fermi1} {f2 : List Fermi2} {i j k : Nat}
    (hm : (⟨i, j, k⟩ : Fermi2) ∈ f2) (hu : ∀ g ∈ f2, g.i = i → g.j = j → g.k = k) :
    (makeFermiChecks f1 f2).ifrm2.check (i, j) k = true := by
  rw [(c27_either _ _ _ _).2.1, c27_type2]
  left
  obtain ⟨l₁, ⟨a, b, c⟩, l₂, rfl, ⟨h1, h2⟩, hl⟩ :=
    exists_last_split (fun g : Fermi2 => g.i = i ∧ g.j = j) f2 ⟨_, hm, rfl, rfl⟩
  dsimp only at h1 h2
  subst h1 h2
  have : c = k := hu ⟨a, b, c⟩ (by simp) rfl rfl
  subst this
  exact ⟨l₁, l₂, rfl, hl⟩

theorem ThirdOnly.check_iff {f1 : List Fermi1} {f2 : List Fermi2} {k l m : Nat} (h : ThirdOnly f1 f2 k l m) :
    (makeFermiChecks f1 f2).ifrm2.check (k, l) m = true ↔ Listed f1 f2 k l m := by
  constructor
  · exact ifrm2_listed
  · intro hl
    obtain ⟨a, b⟩ := h.2.2.2.2 hl
    exact ifrm2_check_of_unique a b

theorem ThirdOnly.either_iff {f1 : List Fermi1} {f2 : List Fermi2} {k l m : Nat} (h : ThirdOnly f1 f2 k l m) :
    (makeFermiChecks f1 f2).ifrm2.checkEither (l, k) m = true ↔ Listed f1 f2 k l m := by
  constructor
  · intro h; exact listed_swap (ifrm2_either_listed h)
  · intro hl
    rw [(c27_either _ _ _ _).1]
    exact .inr ((c27_either _ _ _ _).2.1.1 (h.check_iff.2 hl))

end Tables

section Real

theorem diag_fold (L : List Nat) (w : Vec ℝ) (F3 : T3 ℝ) (ifrm1 : Ifrm1) (k : Nat) (s : ℝ)
    (hd : ∀ l ∈ L, ifrm1.check k l = false → w l ≠ 0 ∧ 2 * w k + w l ≠ 0 ∧ 2 * w k - w l ≠ 0) :
    L.foldl (diagStep w F3 ifrm1 k) s = s - (L.map fun l => F3 k k l ^ 2 *
    (1 / (8 * w l) + 1 / (32 * (2 * w k + w l))
      - fracUnless (ifrm1.check k l = true) (2 * w k - w l) / 32)).sum := by
  rw [← foldl_sub_real]
  apply List.foldl_ext
  intro v l hl
  unfold diagStep
  simp only [sq_real, one, lit_real]
  push_cast
  norm_num only
  split
  · next h => rw [frac_pos h]; norm_num
  · next h =>
    obtain ⟨h1, h2, h3⟩ := hd l hl (by simpa using h)
    rw [frac_neg h, mul_div_assoc, diag_fractions _ _ h1 h2 h3]

theorem xDefault_real (w : Vec ℝ) (k l m : Nat) (h : DensOk w k l m) :
    xDefault w k l m = (1 / (w k + w l + w m) + 1 / (w k - w l + w m) - 1 / (w k + w l - w m)
      + 1 / (-w k + w l + w m)) / 8 := by
  obtain ⟨h1, h2, h3, h4⟩ := h
  unfold xDefault
  simp only [dens, sq_real, lit_real]
  push_cast
  norm_num only
  exact off_fractions _ _ _ h1 h2 h3 h4

theorem g_fractions (k l m : ℝ) (h1 : k + l + m ≠ 0) (h2 : k - l + m ≠ 0) (h3 : k + l - m ≠ 0)
    (h4 : -k + l + m ≠ 0) :
    m * k * l / (-(k + l + m) * (k - l + m) * (k + l - m) * (-k + l + m)) =
      -(-(1 / (k + l + m)) + 1 / (k - l + m) + 1 / (k + l - m) + 1 / (-k + l + m)) / 8 := by
  field_simp
  ring

theorem gdiag_fractions (wk wl : ℝ) (h1 : wl ≠ 0) (h2 : 2 * wk + wl ≠ 0) (h3 : 2 * wk - wl ≠ 0) :
    (8 * wk ^ 2 - wl ^ 2) / (16 * wl * (4 * wk ^ 2 - wl ^ 2)) =
      1 / (8 * wl) + 1 / (2 * wk - wl) / 32 - 1 / (32 * (2 * wk + wl)) := by
  obtain ⟨a, ha⟩ : ∃ a, a = 2 * wk + wl := ⟨_, rfl⟩
  obtain ⟨b, hb⟩ : ∃ b, b = 2 * wk - wl := ⟨_, rfl⟩
  have h : 4 * wk ^ 2 - wl ^ 2 = a * b := by rw [ha, hb]; ring
  rw [h, ← ha, ← hb]
  rw [← ha] at h2
  rw [← hb] at h3
  field_simp
  rw [ha, hb]
  ring

theorem list_neg_sum {β : Type} (L : List β) (f : β → ℝ) : (L.map fun m => -f m).sum = -(L.map f).sum := by
  rw [List.sum_neg, List.map_map]; rfl

end Real

end Verif
