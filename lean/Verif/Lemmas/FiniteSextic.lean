import Verif.Lemmas.FiniteRot
import Verif.Model.Sextic

/-! The sextic constants of asymmetric tops as values with infinities and NaN. -/

namespace Verif

variable {n : Nat} {w' : Vec Ext} {w : Vec ℝ} {f3' : T3 Ext} {f3 : T3 ℝ} {z' : T3 Ext} {z : T3 ℝ}
  {rc' : Vec Ext} {rc : Vec ℝ} {pm' : Vec Ext} {pm : Vec ℝ} {wi' : Mat Ext} {wi : Mat ℝ} {c' : Mat Ext} {c : Mat ℝ}

/-- The same places with the same numbers. -/
def SameWrites {β : Type} (l' : List (β × Ext)) (l : List (β × ℝ)) : Prop :=
  List.Forall₂ (fun p q => p.1 = q.1 ∧ Is p.2 q.2) l' l

theorem SameWrites.append {β : Type} {a' b' : List (β × Ext)} {a b : List (β × ℝ)} (h : SameWrites a' a)
    (k : SameWrites b' b) : SameWrites (a' ++ b') (a ++ b) := List.rel_append h k

theorem SameWrites.flatMap {β γ : Type} {l : List γ} {f' : γ → List (β × Ext)} {f : γ → List (β × ℝ)}
    (h : ∀ c ∈ l, SameWrites (f' c) (f c)) : SameWrites (l.flatMap f') (l.flatMap f) := by
  induction l with
  | nil => exact .nil
  | cons a l ih =>
    rw [List.flatMap_cons, List.flatMap_cons]
    exact (h a List.mem_cons_self).append (ih fun c hc => h c (List.mem_cons_of_mem _ hc))

theorem SameWrites.map {β γ : Type} {l : List γ} {i : γ → β} {f' : γ → Ext} {f : γ → ℝ}
    (h : ∀ c ∈ l, Is (f' c) (f c)) :
    SameWrites (l.map fun c => (i c, f' c)) (l.map fun c => (i c, f c)) := by
  induction l with
  | nil => exact .nil
  | cons a l ih =>
    exact .cons ⟨rfl, h a List.mem_cons_self⟩ (ih fun c hc => h c (List.mem_cons_of_mem _ hc))

theorem SameWrites.t4 {l' : List ((Nat × Nat × Nat × Nat) × Ext)} {l : List ((Nat × Nat × Nat × Nat) × ℝ)}
    (h : SameWrites l' l) {t' : T4 Ext} {t : T4 ℝ} (ht : ∀ i j k m, Is (t' i j k m) (t i j k m)) (i j k m : Nat) :
    Is (l'.foldl (fun cc w => T4.set cc w.1.1 w.1.2.1 w.1.2.2.1 w.1.2.2.2 w.2) t' i j k m)
      (l.foldl (fun cc w => T4.set cc w.1.1 w.1.2.1 w.1.2.2.1 w.1.2.2.2 w.2) t i j k m) := by
  unfold SameWrites at h
  induction h generalizing t' t with
  | nil => exact ht i j k m
  | cons hd _ ih =>
    refine ih fun a b c d => ?_
    unfold T4.set
    dsimp only
    rw [hd.1]
    exact Is.ite (fun _ => hd.2) fun _ => ht a b c d

theorem SameWrites.t3 {l' : List ((Nat × Nat × Nat) × Ext)} {l : List ((Nat × Nat × Nat) × ℝ)}
    (h : SameWrites l' l) {t' : T3 Ext} {t : T3 ℝ} (ht : ∀ i j k, Is (t' i j k) (t i j k)) (i j k : Nat) :
    Is (l'.foldl (fun cc w => T3.set cc w.1.1 w.1.2.1 w.1.2.2 w.2) t' i j k)
      (l.foldl (fun cc w => T3.set cc w.1.1 w.1.2.1 w.1.2.2 w.2) t i j k) := by
  unfold SameWrites at h
  induction h generalizing t' t with
  | nil => exact ht i j k
  | cons hd _ ih =>
    refine ih fun a b c => ?_
    unfold T3.set
    dsimp only
    rw [hd.1]
    exact Is.ite (fun _ => hd.2) fun _ => ht a b c

theorem cMat_fin (hw : ∀ i, Is (w' i) (w i)) (hp : ∀ i, Is (pm' i) (pm i)) (hwi : ∀ i j, Is (wi' i j) (wi i j))
    (h0 : ∀ i < n, 0 < w i) (hp0 : ∀ i < 3, pm i ≠ 0) (i j : Nat) :
    Is (cMat 3 n w' pm' wi' i j) (cMat 3 n w pm wi i j) := by
  unfold cMat
  refine Is.matFold (fun p hp' a b hab => ?_) (fun _ _ => Is.lit _) i j
  refine Is.matSet hab _ _ ?_
  simp only [List.mem_flatMap, List.mem_map, List.mem_range] at hp'
  obtain ⟨v, hv, x, hx, y, hy, rfl⟩ := hp'
  dsimp only
  have p := h0 v hv
  have s : (0 : ℝ) < SQLAM := by unfold SQLAM; rw [lit_real]; norm_num
  have q : 0 < SQLAM * SQLAM * w v := by positivity
  have hs : Is SQLAM SQLAM := Is.lit _
  have r := Is.powf15 (Is.mul (Is.mul hs hs) (hw v)) q.le
  is_fin [hwi, hp]
  refine mul_ne_zero (mul_ne_zero (mul_ne_zero ?_ (hp0 x hx)) (hp0 y (by omega))) (powf15_pos q).ne'
  rw [lit_real]; norm_num

theorem ccFac_fin (hw : ∀ i, Is (w' i) (w i)) (h0 : ∀ i < n, 0 < w i) (i j : Nat) (hi : i < n) (hj : j < n) :
    Is (ccFac w' i j) (ccFac w i j) := by
  unfold ccFac
  have pi := h0 i hi
  have pj := h0 j hj
  is_fin [hw]
  all_goals unfold sq; positivity

theorem sqrt_ne {x : ℝ} (h : 0 < x) : (Arith.sqrt x : ℝ) ≠ 0 := by
  rw [sqrt_real]; positivity

theorem ccTensor_fin (hw : ∀ i, Is (w' i) (w i)) (hc : ∀ i j, Is (c' i j) (c i j)) (hz : ∀ i j k, Is (z' i j k) (z i j k))
    (hr : ∀ i, Is (rc' i) (rc i)) (h0 : ∀ i < n, 0 < w i) (i j k l : Nat) :
    Is (ccTensor n 3 w' c' z' rc' i j k l) (ccTensor n 3 w c z rc i j k l) := by
  unfold ccTensor
  refine SameWrites.t4 ?_ (fun _ _ _ _ => Is.lit _) i j k l
  unfold ccWrites
  refine SameWrites.flatMap fun v hv => SameWrites.flatMap fun x _ => ?_
  have pv := h0 v (List.mem_range.1 hv)
  have hsq := Is.sqrt (hw v) pv.le
  have fac : ∀ m < n, Is (ccFac w' v m) (ccFac w v m) := fun m hm => ccFac_fin hw h0 v m (List.mem_range.1 hv) hm
  have pow : ∀ m < n, Is (Arith.powf15 (w' m)) (Arith.powf15 (w m)) := fun m hm => Is.powf15 (hw m) (h0 m hm).le
  refine SameWrites.append (.cons ⟨rfl, ?_⟩ .nil) (SameWrites.flatMap fun y _ => ?_)
  · unfold ccDiag
    refine Is.div (Is.sumTo fun m hm => ?_) hsq (sqrt_ne pv)
    have := fac m hm
    have := pow m hm
    is_fin [hc, hz, hr]
  · by_cases hxy : x = y
    · rw [if_pos hxy, if_pos hxy]; exact .nil
    · rw [if_neg hxy, if_neg hxy]
      have e : Is (ccPair n w' c' z' rc' v x y) (ccPair n w c z rc v x y) := by
        unfold ccPair
        refine Is.div (Is.sumTo fun m hm => ?_) hsq (sqrt_ne pv)
        have := fac m hm
        have := pow m hm
        is_fin [hc, hz, hr]
      refine SameWrites.append (.cons ⟨rfl, e⟩ (.cons ⟨rfl, e⟩ (.cons ⟨rfl, e⟩ .nil)))
        (SameWrites.flatMap fun u _ => ?_)
      by_cases hu : x = u ∨ y = u
      · rw [if_pos hu, if_pos hu]; exact .nil
      · rw [if_neg hu, if_neg hu]
        refine .cons ⟨rfl, ?_⟩ .nil
        unfold ccTriple
        refine Is.div (Is.sumTo fun m hm => ?_) hsq (sqrt_ne pv)
        have := fac m hm
        have := pow m hm
        is_fin [hc, hz, hr]

/-- What `scc` reads is the same, the components of `tau` that exist. -/
structure SccSame (p' : SccIn Ext) (p : SccIn ℝ) : Prop where
  nvib : p'.nvib = p.nvib
  tau : ∀ i j k l, i < 3 → j < 3 → k < 3 → l < 3 → Is (p'.tau i j k l) (p.tau i j k l)
  rotcon : ∀ i, Is (p'.rotcon i) (p.rotcon i)
  freq : ∀ i, Is (p'.freq i) (p.freq i)
  cc : ∀ i j k l, Is (p'.cc i j k l) (p.cc i j k l)
  f3 : ∀ i j k, Is (p'.f3 i j k) (p.f3 i j k)
  c : ∀ i j, Is (p'.c i j) (p.c i j)
  ne : ∀ i < 3, p.rotcon i ≠ 0

theorem tol_fin : Is SCC_TOL SCC_TOL := Is.lit _

theorem scc_tol {x : ℝ} (h : Arith.lt (SCC_TOL : ℝ) x = true) : x ≠ 0 := by
  have : (SCC_TOL : ℝ) < x := by simpa [lt_real] using h
  unfold SCC_TOL at this
  rw [lit_real] at this
  intro e
  rw [e] at this
  norm_num at this

theorem scc_tol_abs {x : ℝ} (h : Arith.lt (SCC_TOL : ℝ) (Arith.abs x) = true) : x ≠ 0 := by
  have := scc_tol h
  rwa [abs_real, abs_ne_zero] at this

theorem sumTriples_fin {f' : Nat → Nat → Nat → Ext} {f : Nat → Nat → Nat → ℝ} (h : ∀ i j k, Is (f' i j k) (f i j k)) :
    Is (sumTriples n f') (sumTriples n f) := Is.sumL fun p _ => h p.1 p.2.1 p.2.2

theorem sccDiag_fin {p' : SccIn Ext} {p : SccIn ℝ} (h : SccSame p' p) (lin : Bool) (x : Nat) (hx : x < 3) :
    Is (sccDiag p' 3 lin x) (sccDiag p 3 lin x) := by
  obtain ⟨hn, ht, hr, hf, hcc, h3, hc, hne⟩ := h
  unfold sccDiag
  rw [hn]
  refine Is.add (Is.add (Is.sub (Is.divLit (Is.mul (Is.lit _) (Is.sumTo fun y hy => ?_)) (by norm_num))
    (Is.mul (Is.sumTo fun i _ => ?_) (Is.lit _))) (Is.divLit (sumTriples_fin fun i j k => ?_) (by norm_num)))
    (Is.mul (Is.ite (fun _ => Is.lit _) fun _ => Is.foldl (fun y hy s t hst => ?_) (Is.lit _)) (Is.lit _))
  · have := ht y x x x hy hx hx hx
    is_fin [hr]
    exact hne y hy
  · is_fin [hf, hcc]
  · is_fin [h3, hc]
  · have := ht y x x x (List.mem_range.1 hy) hx hx hx
    refine Is.ite (fun _ => ?_) fun _ => hst
    dsimp only
    rw [Is.lt tol_fin (Is.abs (Is.sub (hr x) (hr y)))]
    refine Is.ite (fun hp => ?_) fun _ => hst
    is_fin [hr]
    exact scc_tol_abs hp

theorem sccPair_fin {p' : SccIn Ext} {p : SccIn ℝ} (h : SccSame p' p) (x y : Nat) (hx : x < 3) (hy : y < 3) :
    Is (sccPair p' x y) (sccPair p x y) := by
  obtain ⟨hn, ht, hr, hf, hcc, h3, hc, hne⟩ := h
  unfold sccPair
  rw [hn]
  dsimp only
  have d1 : Is (Arith.lit 8.0 * (p'.rotcon x - p'.rotcon y)) (Arith.lit 8.0 * (p.rotcon x - p.rotcon y)) := by
    is_fin [hr]
  rw [Is.lt tol_fin (Is.abs d1)]
  refine Is.add (Is.add (Is.add (Is.add (Is.sub (Is.mul (Is.sumTo fun u hu => ?_) (Is.divLit (Is.lit _) (by norm_num)))
    (Is.sumTo fun i _ => ?_)) (Is.divLit (sumTriples_fin fun i j k => ?_) (by norm_num))) (Is.ite (fun hp => ?_)
    fun _ => Is.lit _)) (Is.foldl (fun u hu s t hst => ?_) (Is.lit _))) (Is.foldl (fun u hu s t hst => ?_) (Is.lit _))
  · have := ht u y x x hu hy hx hx
    have := ht u x y x hu hx hy hx
    have := ht u x x x hu hx hx hx
    have := ht u x y y hu hx hy hy
    have := ht u y y x hu hy hy hx
    is_fin [hr]
    exact hne u hu
  · is_fin [hf, hcc]
  · is_fin [h3, hc]
  · have := ht y y y x hy hy hy hx
    have := ht y x x x hy hx hx hx
    is_fin [hr]
    exact scc_tol_abs hp
  · have hu' := List.mem_range.1 hu
    refine Is.ite (fun _ => hst) fun _ => ?_
    have d2 : Is (Arith.lit 4.0 * sq (p'.rotcon x - p'.rotcon u)) (Arith.lit 4.0 * sq (p.rotcon x - p.rotcon u)) := by
      is_fin [hr]
    rw [Is.lt tol_fin d2]
    refine Is.ite (fun hp => ?_) fun _ => hst
    have := ht u x y y hu' hx hy hy
    have := ht u y y x hu' hy hy hx
    have := ht u u u x hu' hu' hu' hx
    have := ht u x x x hu' hx hx hx
    is_fin [hr]
    exact scc_tol hp
  · have hu' := List.mem_range.1 hu
    refine Is.ite (fun _ => hst) fun _ => ?_
    have d2 : Is (Arith.lit 8.0 * sq (p'.rotcon y - p'.rotcon u)) (Arith.lit 8.0 * sq (p.rotcon y - p.rotcon u)) := by
      is_fin [hr]
    rw [Is.lt tol_fin d2]
    refine Is.ite (fun hp => ?_) fun _ => hst
    have := ht u y x x hu' hy hx hx
    have := ht u x y x hu' hx hy hx
    have := ht u y y y hu' hy hy hy
    have := ht u u u y hu' hu' hu' hy
    is_fin [hr]
    exact scc_tol hp

theorem sccXyz_fin {p' : SccIn Ext} {p : SccIn ℝ} (h : SccSame p' p) : Is (sccXyz p') (sccXyz p) := by
  obtain ⟨hn, ht, hr, hf, hcc, h3, hc, hne⟩ := h
  unfold sccXyz
  rw [hn]
  dsimp only
  have d : ∀ a b, Is (Arith.lit 4.0 * sq (p'.rotcon a - p'.rotcon b)) (Arith.lit 4.0 * sq (p.rotcon a - p.rotcon b)) := by
    intro a b; is_fin [hr]
  simp only [Is.lt tol_fin (d _ _)]
  refine Is.add (Is.add (Is.add (Is.add (Is.sub (Is.divLit (Is.mul (Is.lit _) (Is.sumTo fun u hu => ?_)) (by norm_num))
    (Is.mul (Is.sumTo fun i _ => ?_) (Is.lit _))) (Is.mul (sumTriples_fin fun i j k => ?_) (Is.lit _))) (Is.ite (fun hp => ?_)
    fun _ => Is.lit _)) (Is.ite (fun hp => ?_) fun _ => Is.lit _)) (Is.ite (fun hp => ?_) fun _ => Is.lit _)
  · have t : ∀ i j k, i < 3 → j < 3 → k < 3 → Is (p'.tau u i j k) (p.tau u i j k) := fun i j k a b c => ht u i j k hu a b c
    is_fin [hr, t]
    all_goals first | omega | exact hne u hu
  · is_fin [hf, hcc]
  · is_fin [h3, hc]
  all_goals
    is_fin [hr, ht]
    all_goals first | omega | exact scc_tol hp

theorem scc_fin {p' : SccIn Ext} {p : SccIn ℝ} (h : SccSame p' p) (nfreq i j k : Nat) :
    Is (scc p' .asymmTop 3 nfreq i j k) (scc p .asymmTop 3 nfreq i j k) := by
  unfold scc
  have h' : SccSame (if nfreq = 6 then { p' with rotcon := fun i => p'.rotcon (2 - i) } else p')
      (if nfreq = 6 then { p with rotcon := fun i => p.rotcon (2 - i) } else p) := by
    by_cases h6 : nfreq = 6
    · rw [if_pos h6, if_pos h6]
      exact ⟨h.nvib, h.tau, fun i => h.rotcon _, h.freq, h.cc, h.f3, h.c, fun i _ => h.ne _ (by omega)⟩
    · rw [if_neg h6, if_neg h6]; exact h
  generalize (if nfreq = 6 then { p' with rotcon := fun i => p'.rotcon (2 - i) } else p') = q' at h' ⊢
  generalize (if nfreq = 6 then { p with rotcon := fun i => p.rotcon (2 - i) } else p) = q at h' ⊢
  refine SameWrites.t3 ?_ (fun _ _ _ => Is.lit _) i j k
  unfold sccWrites
  refine SameWrites.append (SameWrites.map fun x hx => sccDiag_fin h' _ x (List.mem_range.1 hx)) ?_
  rw [if_neg (by decide), if_neg (by decide)]
  refine SameWrites.append (SameWrites.flatMap fun x hx => SameWrites.flatMap fun y hy => ?_) ?_
  · by_cases hxy : x = y
    · rw [if_pos hxy, if_pos hxy]; exact .nil
    · rw [if_neg hxy, if_neg hxy]
      have e := sccPair_fin h' x y (List.mem_range.1 hx) (List.mem_range.1 hy)
      exact .cons ⟨rfl, e⟩ (.cons ⟨rfl, e⟩ (.cons ⟨rfl, e⟩ .nil))
  · have e := sccXyz_fin h'
    exact .cons ⟨rfl, e⟩ (.cons ⟨rfl, e⟩ (.cons ⟨rfl, e⟩ (.cons ⟨rfl, e⟩ (.cons ⟨rfl, e⟩ (.cons ⟨rfl, e⟩ .nil)))))

theorem makePhi_fin {s' : T3 Ext} {s : T3 ℝ} (h : ∀ i j k, Is (s' i j k) (s i j k)) (ic : Vec Nat) (i j k : Nat) :
    Is (makePhi 3 ic s' i j k) (makePhi 3 ic s i j k) := by
  unfold makePhi
  generalize ((List.range 3).flatMap fun i => (List.range 3).flatMap fun j => (List.range 3).map fun k => (i, j, k)) = L
  have init : ∀ i j k : Nat, Is ((fun _ _ _ => Arith.lit 0 : T3 Ext) i j k) ((fun _ _ _ => Arith.lit 0 : T3 ℝ) i j k) :=
    fun _ _ _ => Is.lit _
  generalize (fun _ _ _ => Arith.lit 0 : T3 Ext) = m0' at init ⊢
  generalize (fun _ _ _ => Arith.lit 0 : T3 ℝ) = m0 at init ⊢
  induction L generalizing m0 m0' with
  | nil => exact init i j k
  | cons a l ih =>
    refine ih _ _ fun x y z => ?_
    unfold T3.set
    exact Is.ite (fun _ => h _ _ _) fun _ => init x y z

theorem sextic_fin (hw : ∀ i, Is (w' i) (w i)) (hp : ∀ i, Is (pm' i) (pm i)) (hwi : ∀ i j, Is (wi' i j) (wi i j))
    (hr : ∀ i, Is (rc' i) (rc i)) (hz : ∀ i j k, Is (z' i j k) (z i j k)) (h3 : ∀ i j k, Is (f3' i j k) (f3 i j k))
    (h0 : ∀ i < n, 0 < w i) (hp0 : ∀ i < 3, pm i ≠ 0) (hr0 : ∀ i < 3, rc i ≠ 0) (h01 : rc 1 < rc 0)
    (h12 : rc 2 < rc 1) (nfreq : Nat) {q : Quartic ℝ} (hq : Quartic.new .asymmTop n rc pm w wi = some q)
    (hb : rc 0 - (rc 1 + rc 2) / 2 + 10 * q.r6 ≠ 0) :
    Sextic.new .asymmTop n nfreq rc' pm' w' wi' z' f3' = (Sextic.new .asymmTop n nfreq rc pm w wi z f3).toExt := by
  have htau : ∀ i j k l, i < 3 → j < 3 → k < 3 → l < 3 → Is (makeTau n w' pm' wi' i j k l) (makeTau n w pm wi i j k l) :=
    fun i j k l hi hj hk hl => makeTau_fin hw hp hwi h0 hp0 i j k l hi hj hk hl
  have ht := tauPrime_fin htau
  have hT := quarticT_fin ht (princCart 0).1
  have hC := cMat_fin hw hp hwi h0 hp0
  have hCC := ccTensor_fin hw hC hz hr h0
  have hS := scc_fin (p' := ⟨n, makeTau n w' pm' wi', rc', w', ccTensor n 3 w' (cMat 3 n w' pm' wi') z' rc', f3',
    cMat 3 n w' pm' wi'⟩) (p := ⟨n, makeTau n w pm wi, rc, w, ccTensor n 3 w (cMat 3 n w pm wi) z rc, f3,
    cMat 3 n w pm wi⟩) ⟨rfl, htau, hr, hw, hCC, h3, hC, hr0⟩ nfreq
  have hP := makePhi_fin hS (princCart 0).1
  have e12 : rc 1 - rc 2 ≠ 0 := by intro e; linarith
  have hsig : Is ((Arith.lit 2.0 * rc' 0 - rc' 1 - rc' 2) / (rc' 1 - rc' 2))
      ((Arith.lit 2.0 * rc 0 - rc 1 - rc 2) / (rc 1 - rc 2)) := by is_fin [hr]
  have hsig0 : (Arith.lit 2.0 * rc 0 - rc 1 - rc 2) / (rc 1 - rc 2) ≠ 0 := by
    refine div_ne_zero ?_ e12
    rw [lit_real]; push_cast; intro e; norm_num at e; linarith
  have hb2 : Is (Arith.lit 0.25e0 * (rc' 1 - rc' 2)) (Arith.lit 0.25e0 * (rc 1 - rc 2)) := by is_fin [hr]
  have hb20 : Arith.lit 0.25e0 * (rc 1 - rc 2) ≠ 0 := mul_ne_zero (by rw [lit_real]; norm_num) e12
  simp only [Quartic.new, quarticRep, Rotor.spectroLinear, Option.bind_eq_bind, Option.bind_some, quarticAsym,
    Rotor.isSymTop, reduceCtorEq, if_false, if_true, Bool.false_and, Bool.false_eq_true,
    Option.pure_def, Option.some.injEq] at hq
  have hr6 : q.r6 = (quarticT 3 (princCart 0).1 (tauPrime (makeTau n w pm wi)) 0 0 +
      quarticT 3 (princCart 0).1 (tauPrime (makeTau n w pm wi)) 1 1 -
      Arith.lit 2.0 * quarticT 3 (princCart 0).1 (tauPrime (makeTau n w pm wi)) 0 1) / Arith.lit 16.0 := by rw [← hq]
  rw [hr6] at hb
  clear hq hr6
  have d0 : (princCart 0).2 0 = 1 := rfl
  have d1 : (princCart 0).2 1 = 2 := rfl
  have d2 : (princCart 0).2 2 = 0 := rfl
  simp only [Sextic.new, sexticScc, Rotor.spectroLinear, Rotor.isSymTop, sexticPrimat, reduceCtorEq, if_false,
    Bool.false_eq_true, Bool.not_false, if_true, d0, d1, d2, or_true, Sextic.default]
  generalize quarticT 3 (princCart 0).1 (tauPrime (makeTau n w' pm' wi')) = T' at *
  generalize quarticT 3 (princCart 0).1 (tauPrime (makeTau n w pm wi)) = T at *
  generalize makePhi 3 (princCart 0).1 (scc ⟨n, makeTau n w' pm' wi', rc', w', ccTensor n 3 w' (cMat 3 n w' pm' wi') z' rc',
    f3', cMat 3 n w' pm' wi'⟩ .asymmTop 3 nfreq) = P' at *
  generalize makePhi 3 (princCart 0).1 (scc ⟨n, makeTau n w pm wi, rc, w, ccTensor n 3 w (cMat 3 n w pm wi) z rc, f3,
    cMat 3 n w pm wi⟩ .asymmTop 3 nfreq) = P at *
  generalize hS' : (Arith.lit 2.0 * rc' 0 - rc' 1 - rc' 2) / (rc' 1 - rc' 2) = S' at *
  generalize hS : (Arith.lit 2.0 * rc 0 - rc 1 - rc 2) / (rc 1 - rc 2) = S at *
  generalize Arith.lit 0.25e0 * (rc' 1 - rc' 2) = B2' at *
  generalize Arith.lit 0.25e0 * (rc 1 - rc 2) = B2 at *
  have h004 : Is ((T' 0 0 + T' 1 1 - Arith.lit 2.0 * T' 0 1) / Arith.lit 16.0)
    ((T 0 0 + T 1 1 - Arith.lit 2.0 * T 0 1) / Arith.lit 16.0) := by is_fin [hT]
  generalize (T' 0 0 + T' 1 1 - Arith.lit 2.0 * T' 0 1) / Arith.lit 16.0 = t004' at *
  generalize (T 0 0 + T 1 1 - Arith.lit 2.0 * T 0 1) / Arith.lit 16.0 = t004 at *
  have h20 : Is (rc' 0 - (Arith.lit 0.5 * (rc' 1 + rc' 2) - Arith.lit 4.0 * t004') + Arith.lit 6.0 * t004')
    (rc 0 - (Arith.lit 0.5 * (rc 1 + rc 2) - Arith.lit 4.0 * t004) + Arith.lit 6.0 * t004) := by is_fin [hr]
  have h20ne : rc 0 - (Arith.lit 0.5 * (rc 1 + rc 2) - Arith.lit 4.0 * t004) + Arith.lit 6.0 * t004 ≠ 0 := by
    simp only [lit_real]
    intro e
    refine hb ?_
    norm_num at e
    linarith
  generalize rc' 0 - (Arith.lit 0.5 * (rc' 1 + rc' 2) - Arith.lit 4.0 * t004') + Arith.lit 6.0 * t004' = b020' at *
  generalize rc 0 - (Arith.lit 0.5 * (rc 1 + rc 2) - Arith.lit 4.0 * t004) + Arith.lit 6.0 * t004 = b020 at *
  have hdiv : Arith.lit 2.0 * S * S + Arith.lit 27.0 / Arith.lit 16.0 ≠ 0 := by
    simp only [lit_real]
    have := mul_self_nonneg S
    intro e
    norm_num at e
    nlinarith
  have h2S : S * Arith.lit 2.0 ≠ 0 := mul_ne_zero hsig0 (by rw [lit_real]; norm_num)
  have h8S : Arith.lit 8.0 * S ≠ 0 := mul_ne_zero (by rw [lit_real]; norm_num) hsig0
  have h16S : Arith.lit 16.0 * S ≠ 0 := mul_ne_zero (by rw [lit_real]; norm_num) hsig0
  have hSS : S * S ≠ 0 := mul_ne_zero hsig0 hsig0
  simp only [Sextic.toExt, Sextic.mk.injEq]
  refine ⟨?_, ?_, ?_, ?_, ?_, ?_, ?_, ?_, ?_, ?_, ?_, ?_, ?_, ?_, ?_⟩ <;> show Is _ _
  all_goals is_fin [hP, hT]

end Verif
