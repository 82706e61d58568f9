import Verif.Lemmas.Finite
import Verif.Lemmas.Xcalc

/-! The anharmonicity constants as values with infinities and NaN. -/

namespace Verif

/-- The frequencies are positive, descending and different, and the table of resonances contains the exact ones; the
highest mode of a type-2 resonance comes last in it. -/
structure Separable (n : Nat) (w : Vec ℝ) (chk : Nat → Nat → Nat → Nat) : Prop where
  pos : ∀ i < n, 0 < w i
  desc : ∀ i j, i < j → j < n → w j < w i
  type1 : ∀ k l, k < n → l < n → 2 * w k = w l → chk k k l ≠ 0
  type2 : ∀ k l m, k < n → l < n → m < n → k ≠ l → w k + w l = w m → chk k l m ≠ 0
  order : ∀ k l m, k ≠ l → chk k l m ≠ 0 → m < k ∧ m < l

theorem Separable.lt {n : Nat} {w : Vec ℝ} {chk : Nat → Nat → Nat → Nat} (h : Separable n w chk) {k m : Nat}
    (hm : m < n) (e : w k < w m) : m < k := by
  rcases Nat.lt_trichotomy m k with c | c | c
  · exact c
  · rw [c] at e; exact absurd e (lt_irrefl _)
  · exact absurd (h.desc k m c hm) (not_lt.2 e.le)

variable {n : Nat} {w' : Vec Ext} {w : Vec ℝ} {f3' : T3 Ext} {f3 : T3 ℝ} {f4' : T4 Ext} {f4 : T4 ℝ} {z' : T3 Ext}
  {z : T3 ℝ} {rc' : Vec Ext} {rc : Vec ℝ} {chk : Nat → Nat → Nat → Nat}

theorem xDiag_fin (hw : ∀ i, Is (w' i) (w i)) (h3 : ∀ i j k, Is (f3' i j k) (f3 i j k))
    (h4 : ∀ i j k l, Is (f4' i j k l) (f4 i j k l)) (hs : Separable n w chk) (k : Nat) (hk : k < n) :
    Is (xDiag n f4' w' f3' chk k) (xDiag n f4 w f3 chk k) := by
  unfold xDiag one
  have p := hs.pos k hk
  refine Is.add (by is_fin [h4]) (Is.foldl (fun l hl s t hst => ?_) (Is.lit _))
  have pl := hs.pos l (List.mem_range.1 hl)
  have r := hs.type1 k l hk (List.mem_range.1 hl)
  dsimp only
  refine Is.ite (fun h => ?_) (fun h => ?_)
  · is_fin [hw, h3]
    all_goals (simp only [lit_real]; push_cast; positivity)
  · have d : 2 * w k - w l ≠ 0 := fun e => h (r (by linarith))
    have e : (4.0 : ℝ) * (w k * w k) - w l * w l = (2 * w k - w l) * (2 * w k + w l) := by norm_num; ring
    is_fin [hw, h3]
    simp only [lit_real, sq]; push_cast
    have q : 2 * w k + w l ≠ 0 := by positivity
    refine mul_ne_zero (by positivity) ?_
    rw [e]
    exact mul_ne_zero d q

theorem xFac_fin (hw : ∀ i, Is (w' i) (w i)) (hs : Separable n w chk) (k l m : Nat) (hk : k < n) (hl : l < n)
    (hm : m < n) (hkl : k ≠ l) : Is (xFac w' chk k l m) (xFac w chk k l m) := by
  unfold xFac dens one
  have pk := hs.pos k hk
  have pl := hs.pos l hl
  have pm := hs.pos m hm
  have o2 : k ≠ l → w l = w k + w m → l < k ∧ l < m := fun _ e =>
    ⟨hs.lt hl (by linarith), hs.lt hl (by linarith)⟩
  have o3 : w m = w k + w l → m < k ∧ m < l := fun e => ⟨hs.lt hm (by linarith), hs.lt hm (by linarith)⟩
  have o4 : w k = w l + w m → k < l ∧ k < m := fun e => ⟨hs.lt hk (by linarith), hs.lt hk (by linarith)⟩
  dsimp only
  refine Is.ite (fun h => ?_) (fun h1 => Is.ite (fun h => ?_) (fun h2 => Is.ite (fun h => ?_) (fun h3 =>
    Is.ite (fun h => ?_) (fun h4 => Is.ite (fun h => ?_) (fun h5 => ?_)))))
  · is_fin [hw]
    simp only [lit_real]; push_cast; positivity
  · is_fin [hw]
    simp only [lit_real]; push_cast; positivity
  · have o := hs.order k l m hkl h
    is_fin [hw]
    · positivity
    · intro e; have := o2 hkl (by linarith); omega
    · intro e; have := o4 (by linarith); omega
  · have hlm : l ≠ m := fun e => h1 ⟨h, e.symm⟩
    have o := hs.order l m k hlm h
    is_fin [hw]
    · positivity
    · intro e; have := o2 hkl (by linarith); omega
    · intro e; have := o3 (by linarith); omega
  · have hkm : k ≠ m := fun e => h2 ⟨h, e⟩
    have o := hs.order k m l hkm h
    is_fin [hw]
    · positivity
    · intro e; have := o3 (by linarith); omega
    · intro e; have := o4 (by linarith); omega
  · have d2 : w k - w l + w m ≠ 0 := by
      intro e
      by_cases hkm : k = m
      · subst hkm
        exact h2 ⟨hs.type1 k l hk hl (by linarith), rfl⟩
      · exact h5 (hs.type2 k m l hk hm hl hkm (by linarith))
    have d3 : w k + w l - w m ≠ 0 := fun e => h3 (hs.type2 k l m hk hl hm hkl (by linarith))
    have d4 : -w k + w l + w m ≠ 0 := by
      intro e
      by_cases hlm : l = m
      · subst hlm
        exact h1 ⟨hs.type1 l k hl hk (by linarith), rfl⟩
      · exact h4 (hs.type2 l m k hl hm hk hlm (by linarith))
    is_fin [hw]
    refine mul_ne_zero (mul_ne_zero (mul_ne_zero (neg_ne_zero.2 ?_) d2) d3) d4
    have : 0 < w k + w l + w m := by positivity
    exact this.ne'

theorem xOff_fin (hw : ∀ i, Is (w' i) (w i)) (h3 : ∀ i j k, Is (f3' i j k) (f3 i j k))
    (h4 : ∀ i j k l, Is (f4' i j k l) (f4 i j k l)) (hz : ∀ i j k, Is (z' i j k) (z i j k))
    (hr : ∀ i, Is (rc' i) (rc i)) (hs : Separable n w chk) (k l : Nat) (hk : k < n) (hl : l < n) (hkl : k ≠ l) :
    Is (xOff n f4' w' f3' z' rc' chk k l) (xOff n f4 w f3 z rc chk k l) := by
  unfold xOff
  have pk := hs.pos k hk
  have pl := hs.pos l hl
  dsimp only
  have a : Is ((List.range n).foldl (fun v2 m => v2 - f3' k k m * f3' l l m / (Arith.lit 4.0 * w' m)) (Arith.lit 0.0))
      ((List.range n).foldl (fun v2 m => v2 - f3 k k m * f3 l l m / (Arith.lit 4.0 * w m)) (Arith.lit 0.0)) := by
    refine Is.foldl (fun m hm s t hst => ?_) (Is.lit _)
    have pm := hs.pos m (List.mem_range.1 hm)
    is_fin [hw, h3]
    simp only [lit_real]; push_cast; positivity
  have b : Is (sumTo n fun m => -sq (f3' k l m) * xFac w' chk k l m)
      (sumTo n fun m => -sq (f3 k l m) * xFac w chk k l m) := by
    refine Is.sumTo fun m hm => ?_
    have := xFac_fin hw hs k l m hk hl hm hkl
    is_fin [hw, h3]
  is_fin [hw, h3, h4, hz, hr]
  · exact pl.ne'
  · exact pk.ne'

theorem lowPairs_lt {n : Nat} {p : Nat × Nat} (h : p ∈ lowPairs n) : p.1 < n ∧ p.2 < p.1 := by
  unfold lowPairs at h
  simp only [List.mem_flatMap, List.mem_map, List.mem_range, List.mem_range'_1] at h
  obtain ⟨k, hk, l, hl, rfl⟩ := h
  exact ⟨by omega, hl⟩

theorem xcalcMat_fin (hw : ∀ i, Is (w' i) (w i)) (h3 : ∀ i j k, Is (f3' i j k) (f3 i j k))
    (h4 : ∀ i j k l, Is (f4' i j k l) (f4 i j k l)) (hz : ∀ i j k, Is (z' i j k) (z i j k))
    (hr : ∀ i, Is (rc' i) (rc i)) (hs : Separable n w chk) (i j : Nat) :
    Is (xcalcMat n f4' w' f3' z' rc' chk i j) (xcalcMat n f4 w f3 z rc chk i j) := by
  unfold xcalcMat
  refine Is.matFold (fun p hp a b hab => ?_) (Is.matFold (fun k hk a b hab => ?_) fun _ _ => Is.lit _) i j
  · obtain ⟨h1, h2⟩ := lowPairs_lt hp
    have v := xOff_fin hw h3 h4 hz hr hs p.1 p.2 h1 (h2.trans h1) (Nat.ne_of_gt h2)
    exact Is.matSet (Is.matSet hab _ _ v) _ _ v
  · exact Is.matSet hab _ _ (xDiag_fin hw h3 h4 hs k (List.mem_range.1 hk))

theorem e0kkl_fin (hw : ∀ i, Is (w' i) (w i)) (h3 : ∀ i j k, Is (f3' i j k) (f3 i j k)) (hs : Separable n w chk)
    {ifrm1 : Ifrm1} (h1 : ∀ k l, k < n → l < n → 2 * w k = w l → ifrm1 k = some l) (k l : Nat) (hk : k < n)
    (hl : l < n) : Is (e0kkl w' f3' ifrm1 k l) (e0kkl w f3 ifrm1 k l) := by
  unfold e0kkl
  have pk := hs.pos k hk
  have pl := hs.pos l hl
  dsimp only
  refine Is.ite (fun h => ?_) (fun h => ?_)
  · is_fin [hw, h3]
    simp only [lit_real]; push_cast; positivity
  · have d : 2 * w k - w l ≠ 0 := fun e => h (h1 k l hk hl (by linarith))
    have e : (4.0 : ℝ) * (w k * w k) - w l * w l = (2 * w k - w l) * (2 * w k + w l) := by norm_num; ring
    is_fin [hw, h3]
    simp only [lit_real, sq]; push_cast
    have q : 2 * w k + w l ≠ 0 := by positivity
    refine mul_ne_zero (by norm_num) ?_
    rw [e]
    exact mul_ne_zero d q

theorem e0klm_fin (hw : ∀ i, Is (w' i) (w i)) (h3 : ∀ i j k, Is (f3' i j k) (f3 i j k)) (hs : Separable n w chk)
    (k l m : Nat) (hk : k < n) (hkl : l < k) (hlm : m < l) : Is (e0klm w' f3' chk k l m) (e0klm w f3 chk k l m) := by
  unfold e0klm one
  have hl : l < n := hkl.trans hk
  have hm : m < n := hlm.trans hl
  have pk := hs.pos k hk
  have pl := hs.pos l hl
  have pm := hs.pos m hm
  have a := hs.desc l k hkl hk
  have b := hs.desc m l hlm hl
  dsimp only
  refine Is.ite (fun h => ?_) (fun n1 => Is.ite (fun h => ?_) (fun n2 => Is.ite (fun h => ?_) (fun n3 => ?_)))
  · is_fin [hw, h3]
    · positivity
    · intro e; linarith
    · intro e; linarith
  · have := hs.order l m k (Nat.ne_of_gt hlm) h; omega
  · have := hs.order k m l (by omega) h; omega
  · have d3 : w k + w l - w m ≠ 0 := fun e => n1 (hs.type2 k l m hk hl hm (Nat.ne_of_gt hkl) (by linarith))
    is_fin [hw, h3]
    simp only [lit_real]; push_cast
    refine mul_ne_zero (mul_ne_zero (mul_ne_zero (by positivity) ?_) d3) ?_
    · intro e; linarith
    · intro e; linarith

theorem makeE0_fin (hw : ∀ i, Is (w' i) (w i)) (h3 : ∀ i j k, Is (f3' i j k) (f3 i j k))
    (h4 : ∀ i j k l, Is (f4' i j k l) (f4 i j k l)) (hs : Separable n w chk)
    {ifrm1 : Ifrm1} (h1 : ∀ k l, k < n → l < n → 2 * w k = w l → ifrm1 k = some l) {modes : List Mode}
    (hmodes : ∀ k ∈ (Mode.partition modes).1, k < n) :
    Is (makeE0 modes f4' f3' w' ifrm1 chk) (makeE0 modes f4 f3 w ifrm1 chk) := by
  unfold makeE0
  dsimp only
  refine Is.add (Is.add (Is.add (Is.sumL fun k hk => ?_) (Is.sumL fun k hk => ?_)) (Is.sumL fun p hp => ?_))
    (Is.foldl (fun p hp s t hst => ?_) (Is.lit _))
  · is_fin [h4]
  · have := hs.pos k (hmodes k hk)
    is_fin [hw, h3]
    simp only [lit_real]; push_cast; positivity
  · simp only [List.mem_flatMap, List.mem_map, List.mem_filter] at hp
    obtain ⟨k, hk, l, hl, rfl⟩ := hp
    exact e0kkl_fin hw h3 hs h1 k l (hmodes k hk) (hmodes l hl.1)
  · simp only [List.mem_flatMap, List.mem_map, List.mem_filter, decide_eq_true_eq] at hp
    obtain ⟨k, hk, l, hl, m, hm, rfl⟩ := hp
    exact Is.sub hst (e0klm_fin hw h3 hs k l m (hmodes k hk) hl.2 hm.2)

theorem makeFunds_fin (hw : ∀ i, Is (w' i) (w i)) {x' : Mat Ext} {x : Mat ℝ} (hx : ∀ i j, Is (x' i j) (x i j)) (n : Nat) :
    makeFunds w' n x' = (makeFunds w n x).map Ext.fin := by
  unfold makeFunds
  rw [List.map_map]
  refine List.map_congr_left fun i _ => ?_
  have b : Is (w' i + Arith.lit 2.0 * x' i i) (w i + Arith.lit 2.0 * x i i) := by is_fin [hw, hx]
  refine Is.foldl (fun j _ s t hst => ?_) b
  exact Is.ite (fun _ => by is_fin [hx]) fun _ => hst

end Verif
