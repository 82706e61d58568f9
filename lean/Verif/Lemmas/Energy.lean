import Verif.Lemmas.Loop
import Verif.Lemmas.State
import Verif.Model.Energy
import Verif.Spec.Energy
import Verif.Props.Normal
import Verif.Props.State

/-! Helper lemmas for the energies. -/

namespace Verif

section Any
variable {α : Type}

/-- The non-degenerate quanta of a state as `State.partition` lists them. -/
def State.v1 : State → List Nat
  | .i1st v => v
  | .i2st v => List.replicate v.length 0
  | .i3st v => List.replicate v.length 0
  | .i12st a _ => a

/-- The degenerate quanta of a state as `State.partition` lists them. -/
def State.v2 : State → List (Nat × Nat)
  | .i1st v => List.replicate v.length (0, 0)
  | .i2st v => v
  | .i3st v => List.replicate v.length (0, 0)
  | .i12st _ b => b

theorem partition_states (states : List State) :
    (State.partition states).i1sts = states.map State.v1 ∧ (State.partition states).i2sts = states.map State.v2 := by
  unfold State.partition
  induction states using List.reverseRecOn with
  | nil => exact ⟨rfl, rfl⟩
  | append_singleton l s ih =>
    rw [List.foldl_append, List.foldl_cons, List.foldl_nil, List.map_append, List.map_append]
    cases s <;> exact ⟨by rw [ih.1]; rfl, by rw [ih.2]; rfl⟩

theorem getD_rep {β : Type} (n p : Nat) (d : β) : (List.replicate n d).getD p d = d := by
  simp only [List.getD_eq_getElem?_getD, List.getElem?_replicate]
  split <;> rfl

theorem v1_occ (s : State) (p : Nat) : s.v1.getD p 0 = (s.occ (1, p)).1 := by
  cases s <;> first | rfl | exact getD_rep _ _ _

theorem v2_occ (s : State) (p : Nat) : s.v2.getD p (0, 0) = s.occ (2, p) := by
  cases s <;> first | rfl | exact getD_rep _ _ _

theorem mapM_option_some {β : Type} {f : β → Option α} {l : List β} {r : List α} :
    l.mapM f = some r ↔ l.map f = r.map some := by
  induction l generalizing r with
  | nil => cases r <;> simp
  | cons a l ih =>
    rw [List.mapM_cons, List.map_cons]
    cases h : f a with
    | none => cases r <;> simp
    | some b =>
      cases h' : l.mapM f with
      | none =>
        cases r with
        | nil => simp
        | cons c r =>
          simp only [Option.bind_eq_bind, Option.bind_some, Option.bind_none, List.map_cons, List.cons.injEq,
            reduceCtorEq, false_iff, not_and]
          intro _ h2
          rw [ih.2 h2] at h'
          cases h'
      | some r' =>
        have := ih.1 h'
        cases r with
        | nil => simp
        | cons c r =>
          simp only [Option.bind_eq_bind, Option.bind_some, Option.pure_def, Option.some.injEq, List.cons.injEq,
            List.map_cons]
          rw [this]
          constructor
          · rintro ⟨rfl, rfl⟩; exact ⟨rfl, rfl⟩
          · rintro ⟨rfl, h2⟩
            exact ⟨rfl, List.map_injective_iff.2 (Option.some_injective _) h2⟩

/-- Filling an array from the front. -/
theorem foldlM_fill (f : Nat → Option α) (n : Nat) (eng : List α) (hn : n ≤ eng.length) :
    (List.range n).foldlM (fun eng i => do let e ← f i; setAt eng i e) eng =
      ((List.range n).mapM f).map (· ++ eng.drop n) := by
  induction n with
  | zero => simp
  | succ n ih =>
    rw [List.range_succ, List.foldlM_append, ih (by omega), List.mapM_append]
    cases h : (List.range n).mapM f with
    | none => simp
    | some l =>
      have hl : l.length = n := by
        have := congrArg List.length (mapM_option_some.1 h)
        simpa using this.symm
      cases h' : f n with
      | none => simp [h']
      | some e =>
        have : (l ++ eng.drop n).length = eng.length := by simp; omega
        simp only [Option.map_some, Option.bind_eq_bind, Option.bind_some, List.foldlM_cons, List.foldlM_nil, h',
          setAt, this, if_pos (show n < eng.length by omega), List.mapM_cons, List.mapM_nil, Option.pure_def,
          Option.some.injEq]
        have hd : eng.drop n = eng[n] :: eng.drop (n + 1) := List.drop_eq_getElem_cons (by omega)
        rw [List.set_append_right _ _ (by omega), hl, hd, Nat.sub_self, List.set_cons_zero, List.append_assoc]
        rfl

end Any

section Real

theorem unordered_map {ι κ : Type} (f : κ → κ → ℝ) (g : ι → κ) (L : List ι) :
    unorderedSum f (L.map g) = unorderedSum (fun a b => f (g a) (g b)) L := by
  induction L with
  | nil => rfl
  | cons a L ih => simp only [List.map_cons, unorderedSum, ih, List.map_map, Function.comp_def]

theorem unordered_append {ι : Type} (f : ι → ι → ℝ) (A B : List ι) :
    unorderedSum f (A ++ B) = unorderedSum f A + unorderedSum f B + (A.map fun a => (B.map fun b => f a b).sum).sum := by
  induction A with
  | nil => simp [unorderedSum]
  | cons a A ih =>
    simp only [List.cons_append, unorderedSum, ih, List.map_append, List.sum_append, List.map_cons, List.sum_cons]
    ring

theorem unordered_range (f : Nat → Nat → ℝ) (n : Nat) (hs : ∀ a < n, ∀ b < n, f a b = f b a) :
    ((leqPairs n).map fun p => f p.1 p.2).sum = unorderedSum f (List.range n) := by
  induction n with
  | zero => rfl
  | succ n ih =>
    have e : leqPairs (n + 1) = leqPairs n ++ (List.range (n + 1)).map fun j => (n, j) := by
      simp [leqPairs, List.range_succ (n := n), List.flatMap_append]
    rw [e, List.map_append, List.sum_append, ih (fun a ha b hb => hs a (by omega) b (by omega)), List.map_map,
      List.range_succ, unordered_append, List.map_append, List.sum_append]
    have : (List.range n).map ((fun p : Nat × Nat => f p.1 p.2) ∘ fun j => (n, j)) =
        (List.range n).map fun a => ([n].map fun b => f a b).sum := by
      refine List.map_congr_left fun a ha => ?_
      have := List.mem_range.1 ha
      simp [hs n (by omega) a (by omega)]
    rw [this]
    simp [unorderedSum]
    ring

theorem pairs_sum (f : Nat → Nat → ℝ) (n m : Nat) :
    ((pairs n m).map fun p => f p.1 p.2).sum =
      ((List.range n).map fun a => ((List.range m).map fun b => f a b).sum).sum := by
  unfold pairs
  rw [List.map_flatMap]
  simp only [List.map_map, Function.comp_def]
  induction (List.range n) with
  | nil => rfl
  | cons a l ih => rw [List.flatMap_cons, List.sum_append, ih, List.map_cons, List.sum_cons]

theorem range_sum_list (f : Nat → ℝ) (n : Nat) : ((List.range n).map f).sum = ∑ i ∈ Finset.range n, f i := by
  rw [← List.sum_toFinset _ List.nodup_range, List.toFinset_range]

theorem stateEnergy_real (i1mode : List Nat) (i2mode : List (Nat × Nat)) (w : Vec ℝ) (x : Mat ℝ)
    (g : Option (Mat ℝ)) (e0 : ℝ) (s : State)
    (hx : ∀ i ∈ i1mode ++ i2mode.map (·.1), ∀ j ∈ i1mode ++ i2mode.map (·.1), x i j = x j i)
    (hg : ∀ i ∈ i2mode.map (·.1), ∀ j ∈ i2mode.map (·.1), ∀ G, g = some G → G i j = G j i)
    (h1 : i1mode.length ≤ s.v1.length) (h2 : i2mode.length ≤ s.v2.length)
    (h3 : i2mode = [] ∨ g.isSome) :
    stateEnergy i1mode i2mode w x g e0 s.v1 s.v2 = some (levelEnergy i1mode.length i2mode.length
      (oscIdx i1mode i2mode) w x (g.getD fun _ _ => 0) e0 s.occ) := by
  have m1 : ∀ p < i1mode.length, i1mode.getD p 0 ∈ i1mode ++ i2mode.map (·.1) := fun p hp => by
    rw [List.getD_eq_getElem?_getD, List.getElem?_eq_getElem hp]
    exact List.mem_append_left _ (List.getElem_mem _)
  have m2 : ∀ p < i2mode.length, (i2mode.getD p (0, 0)).1 ∈ i2mode.map (·.1) := fun p hp => by
    rw [List.getD_eq_getElem?_getD, List.getElem?_eq_getElem hp]
    exact List.mem_map_of_mem (List.getElem_mem _)
  have h6 : engVal6 i2mode g s.v2 = some (unorderedSum (fun o o' => (g.getD fun _ _ => 0)
      (oscIdx i1mode i2mode o) (oscIdx i1mode i2mode o') * (s.occ o).2 * (s.occ o').2)
        ((List.range i2mode.length).map fun p => (2, p))) := by
    unfold engVal6
    rcases h3 with rfl | h3
    · simp only [List.length_nil, if_true, List.range_zero, List.map_nil, unorderedSum, lit_real]
      norm_num
    · obtain ⟨G, rfl⟩ := Option.isSome_iff_exists.1 h3
      split
      · next h =>
        rw [h]
        simp only [List.range_zero, List.map_nil, unorderedSum, lit_real]
        norm_num
      · simp only [Option.map_some, Option.some.injEq, Option.getD_some, sumL_real, unordered_map, ofNat_real, v2_occ]
        rw [← unordered_range]
        · rfl
        · intro a ha b hb
          show G (i2mode.getD a (0, 0)).1 (i2mode.getD b (0, 0)).1 * _ * _ =
            G (i2mode.getD b (0, 0)).1 (i2mode.getD a (0, 0)).1 * _ * _
          rw [hg _ (m2 a ha) _ (m2 b hb) G rfl]
          ring
  unfold stateEnergy
  simp only [h1, h2, and_self, if_true, h6, Option.map_some, Option.some.injEq]
  unfold levelEnergy
  dsimp only
  generalize unorderedSum (fun o o' => (g.getD fun _ _ => 0)
      (oscIdx i1mode i2mode o) (oscIdx i1mode i2mode o') * ((s.occ o).2 : ℝ) * ((s.occ o').2 : ℝ))
        ((List.range i2mode.length).map fun p => (2, p)) = G6
  unfold oscillators
  simp only [unordered_append, List.map_append, List.sum_append, unordered_map, List.map_map, Function.comp_def]
  rw [← unordered_range _ i1mode.length, ← unordered_range _ i2mode.length]
  · simp only [sumTo_real, sumL_real, ofNat_real, lit_real, v1_occ, v2_occ]
    rw [pairs_sum (fun a b => x (i1mode.getD a 0) (i2mode.getD b (0, 0)).1 *
        ((((s.occ (1, a)).1 : ℝ) + ((0.5 : ℚ) : ℝ)) * (((s.occ (2, b)).1 : ℝ) + ((1.0 : ℚ) : ℝ))))]
    simp only [← range_sum_list]
    have c1 : ((0.5 : ℚ) : ℝ) = 1 / 2 := by norm_num
    have c2 : ((1.0 : ℚ) : ℝ) = 1 := by norm_num
    have c3 : (((2 : Nat) : ℝ)) / 2 = 1 := by norm_num
    have c4 : (((1 : Nat) : ℝ)) = 1 := by norm_num
    simp only [c1, c2, c3, c4, oscIdx, if_true, OfNat.ofNat_ne_one, if_false]
    simp only [mul_assoc]
    ring
  · intro a ha b hb
    show x (i2mode.getD a (0, 0)).1 (i2mode.getD b (0, 0)).1 * _ * _ =
            x (i2mode.getD b (0, 0)).1 (i2mode.getD a (0, 0)).1 * _ * _
    rw [hx _ (List.mem_append_right _ (m2 a ha)) _ (List.mem_append_right _ (m2 b hb))]
    ring
  · intro a ha b hb
    show x (i1mode.getD a 0) (i1mode.getD b 0) * _ * _ = x (i1mode.getD b 0) (i1mode.getD a 0) * _ * _
    rw [hx _ (m1 a ha) _ (m1 b hb)]
    ring

theorem unordered_congr {ι : Type} (f g : ι → ι → ℝ) (L : List ι) (h : ∀ a ∈ L, ∀ b ∈ L, f a b = g a b) :
    unorderedSum f L = unorderedSum g L := by
  induction L with
  | nil => rfl
  | cons a L ih =>
    simp only [unorderedSum]
    rw [h a (by simp) a (by simp), ih (fun x hx y hy => h x (by simp [hx]) y (by simp [hy])),
      List.map_congr_left fun b hb => h a (by simp) b (by simp [hb])]

theorem sum_one_hot {ι : Type} [DecidableEq ι] (L : List ι) (hn : L.Nodup) (m : ι) (hm : m ∈ L) (v : ℝ) :
    (L.map fun b => if b = m then v else 0).sum = v := by
  induction L with
  | nil => simp at hm
  | cons a L ih =>
    have haL := (List.nodup_cons.1 hn).1
    rw [List.map_cons, List.sum_cons]
    by_cases ham : a = m
    · subst ham
      have : (L.map fun b => if b = a then v else 0) = L.map fun _ => (0 : ℝ) := by
        refine List.map_congr_left fun b hb => ?_
        have h1 : b ≠ a := fun h => haL (h ▸ hb)
        rw [if_neg h1]
      rw [this, if_pos rfl]
      simp
    · rw [if_neg ham, ih (List.nodup_cons.1 hn).2 (by simpa [Ne.symm ham] using hm), zero_add]

/-- A quadratic form on values that vanish except at `m`. -/
theorem unordered_one_hot {ι : Type} [DecidableEq ι] (X : ι → ι → ℝ) (c : ι → ℝ) (m : ι) (L : List ι) (hn : L.Nodup)
    (hc : ∀ a ∈ L, a ≠ m → c a = 0) :
    unorderedSum (fun a b => X a b * c a * c b) L = if m ∈ L then X m m * c m * c m else 0 := by
  induction L with
  | nil => simp [unorderedSum]
  | cons a L ih =>
    have haL := (List.nodup_cons.1 hn).1
    rw [unorderedSum, ih (List.nodup_cons.1 hn).2 fun b hb => hc b (by simp [hb])]
    have h0 : (L.map fun b => X a b * c a * c b).sum = 0 := by
      refine List.sum_eq_zero fun y hy => ?_
      obtain ⟨b, hb, rfl⟩ := List.mem_map.1 hy
      by_cases ham : a = m
      · rw [hc b (by simp [hb]) (fun h => haL (by rw [ham, ← h]; exact hb)), mul_zero]
      · rw [hc a (by simp) ham, mul_zero, zero_mul]
    rw [h0]
    by_cases ham : a = m
    · subst ham
      simp [haL]
    · rw [hc a (by simp) ham]
      simp [Ne.symm ham]

/-- Adding one to the value at `m` changes a quadratic form by its row at `m`. -/
theorem unordered_bump {ι : Type} [DecidableEq ι] (X : ι → ι → ℝ) (c : ι → ℝ) (m : ι) (L : List ι) (hn : L.Nodup)
    (hX : ∀ a ∈ L, ∀ b ∈ L, X a b = X b a) (hm : m ∈ L) :
    unorderedSum (fun a b => X a b * (c a + if a = m then 1 else 0) * (c b + if b = m then 1 else 0)) L =
      unorderedSum (fun a b => X a b * c a * c b) L + X m m * (2 * c m + 1)
        + ((L.filter fun o => o ≠ m).map fun o => X m o * c o).sum := by
  induction L with
  | nil => simp at hm
  | cons a L ih =>
    have hnL := (List.nodup_cons.1 hn).2
    have haL := (List.nodup_cons.1 hn).1
    simp only [unorderedSum]
    by_cases ham : a = m
    · subst ham
      have e1 : unorderedSum (fun x y => X x y * (c x + if x = a then 1 else 0) * (c y + if y = a then 1 else 0)) L =
          unorderedSum (fun x y => X x y * c x * c y) L := by
        refine unordered_congr _ _ _ fun x hx y hy => ?_
        have h1 : x ≠ a := fun h => haL (h ▸ hx)
        have h2 : y ≠ a := fun h => haL (h ▸ hy)
        rw [if_neg h1, if_neg h2, add_zero, add_zero]
      have e2 : (L.map fun b => X a b * (c a + if a = a then 1 else 0) * (c b + if b = a then 1 else 0)).sum =
          (L.map fun b => X a b * c a * c b).sum + (L.map fun b => X a b * c b).sum := by
        rw [← List.sum_map_add]
        refine congrArg _ (List.map_congr_left fun b hb => ?_)
        have h1 : b ≠ a := fun h => haL (h ▸ hb)
        rw [if_pos rfl, if_neg h1]
        ring
      have e3 : ((a :: L).filter fun o => decide (o ≠ a)) = L := by
        rw [List.filter_cons_of_neg (by simp), List.filter_eq_self.2]
        intro b hb
        simpa using fun h : b = a => haL (h ▸ hb)
      rw [e1, e2, e3, if_pos rfl]
      ring
    · have hmL : m ∈ L := by simpa [Ne.symm ham] using hm
      rw [ih hnL (fun x hx y hy => hX x (by simp [hx]) y (by simp [hy])) hmL, if_neg ham]
      have e2 : (L.map fun b => X a b * (c a + 0) * (c b + if b = m then 1 else 0)).sum =
          (L.map fun b => X a b * c a * c b).sum + X m a * c a := by
        have : ∀ L : List ι, L.Nodup → m ∈ L → (L.map fun b => X a b * (c a + 0) * (c b + if b = m then 1 else 0)).sum =
          (L.map fun b => X a b * c a * c b).sum + X a m * c a := by
          intro L hn hm
          have hs : (L.map fun b => X a b * (c a + 0) * (c b + if b = m then 1 else 0)) =
              L.map fun b => X a b * c a * c b + if b = m then X a m * c a else 0 := by
            refine List.map_congr_left fun b _ => ?_
            by_cases hb : b = m
            · subst hb; simp; ring
            · simp [hb]
          rw [hs, List.sum_map_add]
          congr 1
          exact sum_one_hot L hn m hm _
        rw [this L hnL hmL, hX a (by simp) m hm]
      rw [e2, List.filter_cons_of_pos (by simpa using ham), List.map_cons, List.sum_cons]
      ring

theorem osc_nodup (n1 n2 : Nat) : (oscillators n1 n2).Nodup := by
  unfold oscillators
  refine List.nodup_append.2 ⟨?_, ?_, ?_⟩
  · exact List.nodup_range.map fun a b h => by simpa using h
  · exact List.nodup_range.map fun a b h => by simpa using h
  · intro a ha b hb
    obtain ⟨p, -, rfl⟩ := List.mem_map.1 ha
    obtain ⟨q, -, rfl⟩ := List.mem_map.1 hb
    simp

/-- The energy of a fundamental above the ground state. -/
theorem level_fund (n1 n2 : Nat) (idx : Nat × Nat → Nat) (w : Nat → ℝ) (x g : Nat → Nat → ℝ) (E0 : ℝ) (m : Nat × Nat)
    (hm : m ∈ oscillators n1 n2)
    (hx : ∀ a ∈ oscillators n1 n2, ∀ b ∈ oscillators n1 n2, x (idx a) (idx b) = x (idx b) (idx a)) :
    levelEnergy n1 n2 idx w x g E0 (fundOcc m) - levelEnergy n1 n2 idx w x g E0 noQuanta =
      w (idx m) + x (idx m) (idx m) * ((m.1 : ℝ) + 1)
        + (((oscillators n1 n2).filter fun o => o ≠ m).map fun o => x (idx m) (idx o) * ((o.1 : ℝ) / 2)).sum
        + (if m.1 = 2 then g (idx m) (idx m) else 0) := by
  have hq : ∀ o, ((fundOcc m o).1 : ℝ) + (o.1 : ℝ) / 2 = (o.1 : ℝ) / 2 + if o = m then 1 else 0 := by
    intro o
    unfold fundOcc Function.update
    by_cases h : o = m
    · subst h
      simp [oneQuantum]
      split <;> simp [add_comm]
    · simp [h, noQuanta]
  have hq0 : ∀ o, ((noQuanta o).1 : ℝ) + (o.1 : ℝ) / 2 = (o.1 : ℝ) / 2 := by
    intro o; simp [noQuanta]
  have hw : ((oscillators n1 n2).map fun o => w (idx o) * ((o.1 : ℝ) / 2 + if o = m then 1 else 0)).sum =
      ((oscillators n1 n2).map fun o => w (idx o) * ((o.1 : ℝ) / 2)).sum + w (idx m) := by
    have hs : ((oscillators n1 n2).map fun o => w (idx o) * ((o.1 : ℝ) / 2 + if o = m then 1 else 0)) =
        (oscillators n1 n2).map fun o => w (idx o) * ((o.1 : ℝ) / 2) + if o = m then w (idx m) else 0 := by
      refine List.map_congr_left fun b _ => ?_
      by_cases hb : b = m
      · subst hb; simp; ring
      · simp [hb]
    rw [hs, List.sum_map_add, sum_one_hot _ (osc_nodup n1 n2) m hm]
  have hg : unorderedSum (fun o o' => g (idx o) (idx o') * ((fundOcc m o).2 : ℝ) * ((fundOcc m o').2 : ℝ))
      ((List.range n2).map fun p => (2, p)) = if m.1 = 2 then g (idx m) (idx m) else 0 := by
    rw [unordered_one_hot (fun o o' => g (idx o) (idx o')) (fun o => ((fundOcc m o).2 : ℝ)) m _
      (List.nodup_range.map fun a b h => by simpa using h)
      (fun a _ h => by simp [fundOcc, Function.update, h, noQuanta])]
    have hmem : (m ∈ (List.range n2).map fun p => (2, p)) ↔ m.1 = 2 := by
      obtain ⟨d, p⟩ := m
      simp only [oscillators, List.mem_append, List.mem_map, List.mem_range, Prod.mk.injEq] at hm ⊢
      constructor
      · rintro ⟨_, -, h, -⟩; exact h.symm
      · rintro h
        rcases hm with ⟨a, -, h1, -⟩ | h2
        · omega
        · exact h2
    by_cases h : m.1 = 2
    · rw [if_pos (hmem.2 h), if_pos h]
      simp [fundOcc, oneQuantum, h]
    · rw [if_neg (fun h' => h (hmem.1 h')), if_neg h]
  have hg0 : unorderedSum (fun o o' => g (idx o) (idx o') * ((noQuanta o).2 : ℝ) * ((noQuanta o').2 : ℝ))
      ((List.range n2).map fun p => (2, p)) = 0 := by
    have := unordered_one_hot (fun o o' => g (idx o) (idx o')) (fun o => ((noQuanta o).2 : ℝ)) m
      ((List.range n2).map fun p => (2, p)) (List.nodup_range.map fun a b h => by simpa using h)
      (fun a _ _ => by simp [noQuanta])
    rw [this]
    simp [noQuanta]
  unfold levelEnergy
  simp only [hg, hg0, hq, hq0, hw]
  rw [unordered_bump (fun o o' => x (idx o) (idx o')) (fun o => (o.1 : ℝ) / 2) m _ (osc_nodup n1 n2) hx hm]
  ring

end Real

end Verif
