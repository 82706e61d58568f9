import Verif.Props.Xcalc
import Verif.Props.Xcals

/-!
# C32 and C34: the zero-point constant of symmetric tops
-/

namespace Verif

section Any

variable {α : Type} [Arith α]

theorem sumL_congr {β : Type} (l : List β) (f g : β → α) (h : ∀ x ∈ l, f x = g x) : sumL l f = sumL l g :=
  List.foldl_ext _ _ _ fun s x hx => by rw [h x hx]

omit [Arith α] in
theorem foldl_last {β : Type} (f : α → β → α) (c : α) (d : List β) (z : β) (h : ∀ a, f a z = c) (a : α) :
    (d ++ [z]).foldl f a = c := by
  rw [List.foldl_append]
  exact h _

theorem e3Step_self (i1mode d : List Nat) (freq : Vec α) (f3 : T3 α) (t : FermiChecks) (a : E3Acc α) (k : Nat) :
    e3Step i1mode d freq f3 t a (k, k) = a := if_pos rfl

theorem e3Step_stu (i1mode d : List Nat) (freq : Vec α) (f3 : T3 α) (t : FermiChecks) (a : E3Acc α) (k l : Nat)
    (h : k ≠ l) : (e3Step i1mode d freq f3 t a (k, l)).f3stu = d.foldl (fun f3stu m =>
      if k ≤ l ∨ l ≤ m then Arith.lit 0.0 else f3stu - e3stu freq f3 t.ifrmchk k l m) a.f3stu := by
  unfold e3Step
  rw [if_neg h]

/-- The triples accumulator is zero at the end. -/
theorem e3_stu_zero (i1mode d : List Nat) (hd : d.Nodup) (freq : Vec α) (f3 : T3 α) (t : FermiChecks) :
    ((d.flatMap fun k => d.map fun l => (k, l)).foldl (e3Step i1mode d freq f3 t)
      ⟨Arith.lit 0.0, Arith.lit 0.0, Arith.lit 0.0⟩).f3stu = Arith.lit 0.0 := by
  rcases List.eq_nil_or_concat' d with rfl | ⟨d', z, rfl⟩
  · rfl
  · rcases List.eq_nil_or_concat' d' with rfl | ⟨d'', y, rfl⟩
    · simp only [List.nil_append, List.flatMap_cons, List.flatMap_nil, List.append_nil, List.map_cons,
        List.map_nil, List.foldl_cons, List.foldl_nil]
      rw [e3Step_self]
    · rw [List.flatMap_append, List.foldl_append]
      simp only [List.flatMap_cons, List.flatMap_nil, List.append_nil, List.map_append, List.map_cons, List.map_nil,
        List.foldl_append, List.foldl_cons, List.foldl_nil]
      have hne : z ≠ y := by
        rintro rfl
        simp [List.nodup_append] at hd
      rw [e3Step_self, e3Step_stu _ _ _ _ _ _ _ _ hne]
      refine foldl_last (fun f3stu m =>
        if z ≤ y ∨ y ≤ m then Arith.lit 0.0 else f3stu - e3stu freq f3 t.ifrmchk z y m) _ _ _ (fun a => if_pos ?_) _
      omega

/-- The other two accumulators do not see triples of different degenerate modes. -/
theorem e3_congr (i1mode d : List Nat) (freq : Vec α) (f3 f3' : T3 α) (t : FermiChecks)
    (h1 : ∀ k ∈ d, ∀ l ∈ d, f3 k k l = f3' k k l)
    (h2 : ∀ k ∈ d, ∀ l ∈ d, ∀ m ∈ i1mode, f3 k l m = f3' k l m)
    (ps : List (Nat × Nat)) (hps : ∀ p ∈ ps, p.1 ∈ d ∧ p.2 ∈ d) (a a' : E3Acc α)
    (ha : a.f3kst = a'.f3kst ∧ a.f3sst = a'.f3sst) :
    (ps.foldl (e3Step i1mode d freq f3 t) a).f3kst = (ps.foldl (e3Step i1mode d freq f3' t) a').f3kst ∧
    (ps.foldl (e3Step i1mode d freq f3 t) a).f3sst = (ps.foldl (e3Step i1mode d freq f3' t) a').f3sst := by
  induction ps generalizing a a' with
  | nil => exact ha
  | cons p ps ih =>
    rw [List.foldl_cons, List.foldl_cons]
    refine ih (fun q hq => hps q (List.mem_cons_of_mem _ hq)) _ _ ?_
    obtain ⟨hk, hl⟩ := hps p List.mem_cons_self
    unfold e3Step
    by_cases c : p.1 = p.2
    · simpa [c] using ha
    · simp only [if_neg c]
      constructor
      · rw [ha.1]
        refine List.foldl_ext _ _ _ fun x m hm => ?_
        unfold e3kst
        rw [h2 _ hk _ hl _ hm]
      · unfold e3sst
        rw [ha.2, h1 _ hk _ hl]

/-- C34 is violated for every molecule: the cubic constants of triples of different degenerate modes do not
enter the zero-point constant at all. Two tables that differ only there give the same constant. -/
theorem c34_triples_violated (rotor : Rotor) (F4 : T4 α) (w : Vec α) (F3 F3' zeta : T3 α) (B : Vec α)
    (f1 : List Fermi1) (f2 : List Fermi2) (modes : List Mode) (wila x g x' g' : Mat α) (e0 e0' : α)
    (hd : (modeNumbers modes).Nodup)
    (hF : ∀ a b c, F3 a b c ≠ F3' a b c → a ∈ (degPairs modes).map (·.1) ∧ b ∈ (degPairs modes).map (·.1) ∧
      c ∈ (degPairs modes).map (·.1) ∧ a ≠ b ∧ b ≠ c ∧ a ≠ c)
    (h : xcals rotor F4 w F3 zeta B f1 f2 modes wila = some (x, g, e0))
    (h' : xcals rotor F4 w F3' zeta B f1 f2 modes wila = some (x', g', e0')) : e0 = e0' := by
  have dm := distinct_of_modes modes hd
  have nd : ∀ a ∈ nonDeg modes, a ∉ (degPairs modes).map (·.1) := by
    intro a ha hb
    obtain ⟨p, hp, e⟩ := List.mem_map.1 hb
    exact dm.d12 ha hp e.symm
  have dn : ((degPairs modes).map (·.1)).Nodup := dm.d2
  have key : ∀ a b c, (a ∉ (degPairs modes).map (·.1) ∨ b ∉ (degPairs modes).map (·.1) ∨
      c ∉ (degPairs modes).map (·.1) ∨ a = b) → F3 a b c = F3' a b c := by
    intro a b c hh
    by_contra hc
    obtain ⟨p1, p2, p3, p4, -, -⟩ := hF a b c hc
    tauto
  unfold xcals at h h'
  rw [Option.map_eq_some_iff] at h h'
  obtain ⟨x1, -, e⟩ := h
  obtain ⟨x1', -, e'⟩ := h'
  have e := congrArg (fun r : Mat α × Mat α × α => r.2.2) e
  have e' := congrArg (fun r : Mat α × Mat α × α => r.2.2) e'
  dsimp only at e e'
  rw [← e, ← e', part_nonDeg, part_degPairs]
  have t1 : makeE0 modes F4 F3 w (makeFermiChecks f1 f2).ifrm1 (makeFermiChecks f1 f2).ifrmchk =
      makeE0 modes F4 F3' w (makeFermiChecks f1 f2).ifrm1 (makeFermiChecks f1 f2).ifrmchk := by
    have k1 : ∀ a b c, a ∈ nonDeg modes → F3 a b c = F3' a b c := fun a b c ha => key a b c (.inl (nd a ha))
    unfold makeE0
    rw [part_nonDeg]
    dsimp only
    congr 1
    · congr 1
      · congr 1
        exact sumL_congr _ _ _ fun k hk => by rw [k1 k k k hk]
      · refine sumL_congr _ _ _ fun p hp => ?_
        obtain ⟨k, hk, hp⟩ := List.mem_flatMap.1 hp
        obtain ⟨l, hl, rfl⟩ := List.mem_map.1 hp
        unfold e0kkl
        rw [k1 _ _ _ hk]
    · refine List.foldl_ext _ _ _ fun v p hp => ?_
      obtain ⟨k, hk, hp⟩ := List.mem_flatMap.1 hp
      obtain ⟨l, hl, hp⟩ := List.mem_flatMap.1 hp
      obtain ⟨m, hm, rfl⟩ := List.mem_map.1 hp
      unfold e0klm
      rw [k1 _ _ _ hk]
  have t2 : makeE2 (nonDeg modes) (degPairs modes) w F4 F3 (makeFermiChecks f1 f2).ifrm1 =
      makeE2 (nonDeg modes) (degPairs modes) w F4 F3' (makeFermiChecks f1 f2).ifrm1 := by
    have k1 : ∀ k l, F3 k k l = F3' k k l := fun k l => key k k l (.inr (.inr (.inr rfl)))
    unfold makeE2
    simp only [k1]
  have t3 : makeE3 (nonDeg modes) ((degPairs modes).map (·.1)) w F3 (makeFermiChecks f1 f2) =
      makeE3 (nonDeg modes) ((degPairs modes).map (·.1)) w F3' (makeFermiChecks f1 f2) := by
    unfold makeE3
    dsimp only
    rw [e3_stu_zero _ _ dn, e3_stu_zero _ _ dn]
    obtain ⟨c1, c2⟩ := e3_congr (nonDeg modes) ((degPairs modes).map (·.1)) w F3 F3' (makeFermiChecks f1 f2)
      (fun k _ l _ => key _ _ _ (Or.inr (Or.inr (Or.inr rfl))))
      (fun k _ l _ m hm => key _ _ _ (Or.inr (Or.inr (Or.inl (nd m hm)))))
      (((degPairs modes).map (·.1)).flatMap fun k => ((degPairs modes).map (·.1)).map fun l => (k, l))
      (fun p hp => by
        obtain ⟨k, hk, hp⟩ := List.mem_flatMap.1 hp
        obtain ⟨l, hl, rfl⟩ := List.mem_map.1 hp
        exact ⟨hk, hl⟩) ⟨Arith.lit 0.0, Arith.lit 0.0, Arith.lit 0.0⟩ ⟨Arith.lit 0.0, Arith.lit 0.0, Arith.lit 0.0⟩ ⟨rfl, rfl⟩
    rw [c1, c2]
  rw [t1, t2, t3]

/-- Three degenerate modes: the hypotheses allow tables that differ on the triple. -/
example : ∀ a b c : Nat, (if (a, b, c) = (5, 3, 1) then (100 : Nat) else 0) ≠ 0 →
    a ∈ (degPairs [.i1 0, .i2 1 2, .i2 3 4, .i2 5 6]).map (·.1) ∧
    b ∈ (degPairs [.i1 0, .i2 1 2, .i2 3 4, .i2 5 6]).map (·.1) ∧
    c ∈ (degPairs [.i1 0, .i2 1 2, .i2 3 4, .i2 5 6]).map (·.1) ∧ a ≠ b ∧ b ≠ c ∧ a ≠ c := by
  intro a b c h
  have : (a, b, c) = (5, 3, 1) := by by_contra hc; simp [hc] at h
  simp only [Prod.mk.injEq] at this
  obtain ⟨rfl, rfl, rfl⟩ := this
  decide

end Any

section Real

theorem not_linearR (r : Rotor) (h : r ≠ .linear) : r.isLinearR = false := by
  cases r <;> first | rfl | exact absurd rfl h

theorem sst_fractions (wk wl : ℝ) (h1 : wl ≠ 0) (h2 : 2 * wk + wl ≠ 0) (h3 : 2 * wk - wl ≠ 0) :
    (8 * wk ^ 2 + wl ^ 2) / (wl * (4 * wk ^ 2 - wl ^ 2)) =
      2 / wl + 3 / 2 * (1 / (2 * wk - wl) - 1 / (2 * wk + wl)) := by
  obtain ⟨a, ha⟩ : ∃ a, a = 2 * wk + wl := ⟨_, rfl⟩
  obtain ⟨b, hb⟩ : ∃ b, b = 2 * wk - wl := ⟨_, rfl⟩
  have h : 4 * wk ^ 2 - wl ^ 2 = a * b := by rw [ha, hb]; ring
  rw [h, ← ha, ← hb]
  rw [← ha] at h2
  rw [← hb] at h3
  field_simp
  rw [ha, hb]
  ring

theorem e2_value (F4 : T4 ℝ) (w : Vec ℝ) (F3 : T3 ℝ) (f1 : List Fermi1) (f2 : List Fermi2)
    (L1 : List Nat) (L2 : List (Nat × Nat))
    (hn : ∀ k ∈ L2.map (·.1), ∀ l ∈ L1, (⟨k, l⟩ : Fermi1) ∉ f1)
    (hw : ∀ k ∈ L2.map (·.1), ∀ l ∈ L1, 2 * w k + w l ≠ 0 ∧ 2 * w k - w l ≠ 0) :
    makeE2 L1 L2 w F4 F3 (makeFermiChecks f1 f2).ifrm1 =
      e2Spec (fun a _ c => ⟨a, c⟩ ∈ f1) L1 (L2.map (·.1)) w F3 F4 := by
  unfold makeE2 e2Spec
  simp only [sumL_real, list_sum_flatMap_map, List.map_map, Function.comp_def, lit_real, sq_real]
  push_cast
  norm_num only
  have t : ∀ p ∈ L2, (L1.map fun l =>
      if (makeFermiChecks f1 f2).ifrm1.check p.1 l then F3 p.1 p.1 l ^ 2 / (16 * (2 * (2 * w p.1 + w l)))
      else F3 p.1 p.1 l ^ 2 * w l / (16 * (4 * w p.1 ^ 2 - w l ^ 2))) =
      L1.map fun l => F3 p.1 p.1 l ^ 2 / 32 *
        (fracUnless (⟨p.1, l⟩ ∈ f1) (2 * w p.1 - w l) - 1 / (2 * w p.1 + w l)) := by
    intro p hp
    refine List.map_congr_left fun l hl => ?_
    have c := hn p.1 (List.mem_map_of_mem hp) l hl
    obtain ⟨h1, h2⟩ := hw p.1 (List.mem_map_of_mem hp) l hl
    rw [if_neg (fun c' => c (ifrm1_listed c')), frac_neg c]
    have := e0kkl_fractions _ _ h1 h2
    generalize 4 * w p.1 ^ 2 - w l ^ 2 = D at *
    rw [div_eq_mul_inv, mul_inv] at this ⊢
    have e : F3 p.1 p.1 l ^ 2 * w l * (16⁻¹ * D⁻¹) = F3 p.1 p.1 l ^ 2 * 4 * (w l * (64⁻¹ * D⁻¹)) := by ring
    rw [e, this]
    ring
  have t' := List.map_congr_left fun p hp => congrArg List.sum (t p hp)
  rw [t']
  simp only [mul_comm (144 : ℝ)]

theorem e3_sst (w : Vec ℝ) (F3 : T3 ℝ) (t : FermiChecks) (L1 d : List Nat) (ps : List (Nat × Nat)) (a : E3Acc ℝ) :
    (ps.foldl (e3Step L1 d w F3 t) a).f3sst =
      a.f3sst + (ps.map fun p => if p.1 = p.2 then 0 else e3sst w F3 t.ifrm1 p.1 p.2).sum := by
  induction ps generalizing a with
  | nil => simp
  | cons p ps ih =>
    rw [List.foldl_cons, ih, List.map_cons, List.sum_cons]
    unfold e3Step
    by_cases h : p.1 = p.2
    · simp [h]
    · simp only [if_neg h]
      ring

/-- The accumulator of pairs with a non-degenerate mode is cleared at the end of each row but the last. -/
theorem e3_kst_clear (w : Vec ℝ) (F3 : T3 ℝ) (t : FermiChecks) (L1 d : List Nat) (ks : List Nat) (ls : List Nat) (z : Nat)
    (hz : ∀ k ∈ ks, k < z) (a : E3Acc ℝ) (ha : a.f3kst = 0) :
    ((ks.flatMap fun k => (ls ++ [z]).map fun l => (k, l)).foldl (e3Step L1 d w F3 t) a).f3kst = 0 := by
  have h0 : Arith.lit (α := ℝ) 0.0 = 0 := by rw [lit_real]; norm_num
  induction ks using List.reverseRecOn with
  | nil => exact ha
  | append_singleton ks k ih =>
    rcases L1 with _ | ⟨m, L1⟩
    · have : ∀ (ps : List (Nat × Nat)) (a : E3Acc ℝ), (ps.foldl (e3Step [] d w F3 t) a).f3kst = a.f3kst := by
        intro ps
        induction ps with
        | nil => intro a; rfl
        | cons p ps ih =>
          intro a
          rw [List.foldl_cons, ih]
          unfold e3Step
          by_cases h : p.1 = p.2 <;> simp [h]
      rw [this, ha]
    · have hk : k < z := hz k (by simp)
      simp only [List.flatMap_append, List.flatMap_cons, List.flatMap_nil, List.append_nil, List.map_append, List.map_cons,
        List.map_nil, List.foldl_append, List.foldl_cons, List.foldl_nil]
      rw [e3Step]
      simp only [if_neg (show ¬ k = z by omega), if_pos hk.le, h0, List.foldl_cons]
      generalize L1 = l
      induction l with
      | nil => rfl
      | cons _ _ ih => exact ih

/-- The last row. -/
theorem e3_kst_last (w : Vec ℝ) (F3 : T3 ℝ) (t : FermiChecks) (L1 d : List Nat) (ls : List Nat) (z : Nat)
    (hz : ∀ l ∈ ls, l < z) (a : E3Acc ℝ) :
    (((ls ++ [z]).map fun l => (z, l)).foldl (e3Step L1 d w F3 t) a).f3kst =
      a.f3kst - (ls.map fun l => (L1.map fun m => e3kst w F3 t.ifrm2 z l m).sum).sum := by
  rw [List.map_append, List.foldl_append]
  simp only [List.map_cons, List.map_nil, List.foldl_cons, List.foldl_nil]
  rw [e3Step_self]
  induction ls generalizing a with
  | nil => simp
  | cons l ls ih =>
    have hl : l < z := hz l (by simp)
    rw [List.map_cons, List.foldl_cons, ih (fun l h => hz l (by simp [h])), List.map_cons, List.sum_cons]
    rw [e3Step]
    simp only [if_neg (show ¬ z = l by omega), if_neg (show ¬ z ≤ l by omega)]
    rw [foldl_sub_real]
    ring

theorem sum_filter_ne (l : List Nat) (k : Nat) (f : Nat → ℝ) :
    (l.map fun x => if k = x then 0 else f x).sum = ((l.filter fun x => k ≠ x).map f).sum := by
  induction l with
  | nil => rfl
  | cons x l ih =>
    rw [List.map_cons, List.sum_cons, ih, List.filter_cons]
    by_cases h : k = x <;> simp [h]

theorem e3_value (w : Vec ℝ) (F3 : T3 ℝ) (f1 : List Fermi1) (f2 : List Fermi2) (L1 d : List Nat)
    (hs : d.Pairwise (· < ·))
    (hn : ∀ a ∈ L1 ++ d, ∀ b ∈ L1 ++ d, ∀ c ∈ L1 ++ d, ¬ Listed f1 f2 a b c)
    (h2 : ∀ k ∈ d, ∀ l ∈ d, k ≠ l → w l ≠ 0 ∧ 2 * w k + w l ≠ 0 ∧ 2 * w k - w l ≠ 0)
    (h3 : ∀ k ∈ d, ∀ l ∈ d, k ≠ l → ∀ m ∈ L1, DensOk w k l m) :
    makeE3 L1 d w F3 (makeFermiChecks f1 f2) = e3Spec (Listed f1 f2) L1 d w F3 - e3Missing False (Listed f1 f2) L1 d w F3 := by
  have sst : ∀ k ∈ d, ∀ l ∈ d, k ≠ l → e3sst w F3 (makeFermiChecks f1 f2).ifrm1 k l =
      F3 k k l ^ 2 / 16 *
      (2 / w l + 3 / 2 * (fracUnless (Listed f1 f2 k k l) (2 * w k - w l) - 1 / (2 * w k + w l))) := by
    intro k hk l hl hne
    have c := hn k (by simp [hk]) k (by simp [hk]) l (by simp [hl])
    obtain ⟨g1, g2, g3⟩ := h2 k hk l hl hne
    unfold e3sst
    rw [if_neg (fun c' => c (Or.inl ⟨rfl, ifrm1_listed c'⟩)), frac_neg c]
    simp only [sq_real, lit_real]
    push_cast
    norm_num only
    rw [← sst_fractions _ _ g1 g2 g3]
    ring
  have kst : ∀ k ∈ d, ∀ l ∈ d, k ≠ l → ∀ m ∈ L1, e3kst w F3 (makeFermiChecks f1 f2).ifrm2 k l m =
      -(F3 k l m ^ 2 / 16 * gFracs (Listed f1 f2) w k l m) := by
    intro k hk l hl hne m hm
    have mk : k ∈ L1 ++ d := by simp [hk]
    have ml : l ∈ L1 ++ d := by simp [hl]
    have mm : m ∈ L1 ++ d := by simp [hm]
    obtain ⟨g1, g2, g3, g4⟩ := h3 k hk l hl hne m hm
    unfold e3kst gFracs
    dsimp only
    rw [if_neg (fun c => hn l ml k mk m mm (ifrm2_listed c)),
      if_neg (fun c => hn m mm l ml k mk (ifrm2_listed c)),
      if_neg (fun c => hn m mm k mk l ml (ifrm2_listed c)),
      frac_neg (hn k mk m mm l ml), frac_neg (hn k mk l ml m mm), frac_neg (hn l ml m mm k mk)]
    have := e0_fractions _ _ _ g1 g2 g3 g4
    simp only [sq_real, lit_real]
    push_cast
    norm_num only
    generalize (w k + w l + w m) = d1 at *
    generalize (w k - w l + w m) = d2 at *
    generalize (w k + w l - w m) = d3 at *
    generalize (-w k + w l + w m) = d4 at *
    generalize (w k - w l - w m) = d4' at *
    have e : F3 k l m ^ 2 * (w k * w l * w m) / (2 * (d1 * d2 * d3 * d4')) =
        2 * F3 k l m ^ 2 * (w k * w l * w m / (4 * d1 * d2 * d3 * d4')) := by
      simp only [div_eq_mul_inv, mul_inv]
      ring
    rw [e, this]
    ring
  have h0 : Arith.lit (α := ℝ) 0.0 = 0 := by rw [lit_real]; norm_num
  have dn : d.Nodup := hs.imp fun h => h.ne
  unfold makeE3
  dsimp only
  rw [e3_stu_zero L1 d dn, e3_sst, h0, list_sum_flatMap_map]
  have s1 : (d.map fun k => ((d.map fun l => (k, l)).map fun p =>
      if p.1 = p.2 then 0 else e3sst w F3 (makeFermiChecks f1 f2).ifrm1 p.1 p.2).sum) =
      d.map fun k => ((d.filter fun l => k ≠ l).map fun l => F3 k k l ^ 2 / 16 *
      (2 / w l + 3 / 2 * (fracUnless (Listed f1 f2 k k l) (2 * w k - w l) - 1 / (2 * w k + w l)))).sum := by
    refine List.map_congr_left fun k hk => ?_
    rw [List.map_map]
    simp only [Function.comp_def]
    rw [sum_filter_ne]
    refine congrArg List.sum (List.map_congr_left fun l hl => ?_)
    obtain ⟨hl, hne⟩ := List.mem_filter.1 hl
    exact sst k hk l hl (by simpa using hne)
  rw [s1]
  unfold e3Spec e3Missing
  rw [if_neg not_false]
  rcases List.eq_nil_or_concat' d with rfl | ⟨ls, z, rfl⟩
  · simp
  · have hz : ∀ l ∈ ls, l < z := fun l hl => by
      rw [List.pairwise_append] at hs
      exact hs.2.2 l hl z (by simp)
    have s2 : (((ls ++ [z]).flatMap fun k => (ls ++ [z]).map fun l => (k, l)).foldl
        (e3Step L1 (ls ++ [z]) w F3 (makeFermiChecks f1 f2)) ⟨0, 0, 0⟩).f3kst =
        (ls.map fun l => (L1.map fun m => F3 z l m ^ 2 / 16 * gFracs (Listed f1 f2) w z l m).sum).sum := by
      rw [List.flatMap_append, List.foldl_append]
      simp only [List.flatMap_cons, List.flatMap_nil, List.append_nil]
      rw [e3_kst_last w F3 _ L1 _ ls z hz, e3_kst_clear w F3 _ L1 _ ls ls z hz _ rfl, zero_sub, ← list_neg_sum]
      refine congrArg List.sum (List.map_congr_left fun l hl => ?_)
      rw [List.map_congr_left (kst z (by simp) l (by simp [hl]) (hz l hl).ne'), list_neg_sum, neg_neg]
    rw [s2, List.dropLast_concat]
    have s3 : ((ls ++ [z]).filter fun l => l < z) = ls := by
      rw [List.filter_append, List.filter_eq_self.2 (fun l hl => by simpa using hz l hl)]
      simp
    rw [List.map_append (f := fun k => (((ls ++ [z]).filter fun l => l < k).map fun l => (L1.map fun m =>
      F3 k l m ^ 2 / 16 * gFracs (Listed f1 f2) w k l m).sum).sum), List.sum_append]
    simp only [List.map_cons, List.map_nil, List.sum_cons, List.sum_nil, s3]
    ring

theorem e3Missing_two (R : Nat → Nat → Nat → Prop) (L1 d : List Nat) (w : Nat → ℝ) (F3 : T3 ℝ) (hlen : d.length ≤ 2)
    (hs : d.Pairwise (· < ·)) : e3Missing False R L1 d w F3 = 0 := by
  unfold e3Missing
  rw [if_neg not_false]
  match d, hlen with
  | [], _ => simp
  | [a], _ => simp
  | [a, b], _ =>
    have hab : a < b := by simpa using hs
    have n1 : ¬ b < a := by omega
    simp [n1, hab]
  | _ :: _ :: _ :: _, h => simp at h

/-- C32 and C34, exactly: without listed resonances, and with the degenerate modes in ascending order, the zero-point constant of a
symmetric top or linear molecule is the sum of the textbook terms without the terms of `e3Missing`. -/
theorem c34_exact (rotor : Rotor) (F4 : T4 ℝ) (w : Vec ℝ) (F3 zeta : T3 ℝ) (B : Vec ℝ)
    (f1 : List Fermi1) (f2 : List Fermi2) (modes : List Mode) (wila x g : Mat ℝ) (e0 : ℝ)
    (h : xcals rotor F4 w F3 zeta B f1 f2 modes wila = some (x, g, e0)) (hs : ((degPairs modes).map (·.1)).Pairwise (· < ·))
    (hn : ∀ a ∈ nonDeg modes ++ (degPairs modes).map (·.1), ∀ b ∈ nonDeg modes ++ (degPairs modes).map (·.1),
      ∀ c ∈ nonDeg modes ++ (degPairs modes).map (·.1), ¬ Listed f1 f2 a b c)
    (h1 : E0Regular (nonDeg modes) w)
    (h2 : ∀ k ∈ (degPairs modes).map (·.1), ∀ l ∈ nonDeg modes, 2 * w k + w l ≠ 0 ∧ 2 * w k - w l ≠ 0)
    (h3 : ∀ k ∈ (degPairs modes).map (·.1), ∀ l ∈ (degPairs modes).map (·.1), k ≠ l →
      w l ≠ 0 ∧ 2 * w k + w l ≠ 0 ∧ 2 * w k - w l ≠ 0)
    (h4 : ∀ k ∈ (degPairs modes).map (·.1), ∀ l ∈ (degPairs modes).map (·.1), k ≠ l →
      ∀ m ∈ nonDeg modes, DensOk w k l m) :
    e0 = e0Spec (Listed f1 f2) (nonDeg modes) w F3 F4 +
      e2Spec (Listed f1 f2) (nonDeg modes) ((degPairs modes).map (·.1)) w F3 F4 +
      (e3Spec (Listed f1 f2) (nonDeg modes) ((degPairs modes).map (·.1)) w F3 -
        e3Missing (rotor = .linear) (Listed f1 f2) (nonDeg modes) ((degPairs modes).map (·.1)) w F3) := by
  unfold xcals at h
  rw [Option.map_eq_some_iff] at h
  obtain ⟨x1, -, e⟩ := h
  have e := congrArg (fun r : Mat ℝ × Mat ℝ × ℝ => r.2.2) e
  dsimp only at e
  rw [← e, part_nonDeg, part_degPairs]
  have t1 := c32_partial 0 F4 w F3 zeta B modes f1 f2 (fun a ha b hb c hc =>
    hn a (List.mem_append_left _ ha) b (List.mem_append_left _ hb) c (List.mem_append_left _ hc)) h1
  have t2 := e2_value F4 w F3 f1 f2 (nonDeg modes) (degPairs modes) (fun k hk l hl c =>
    hn k (List.mem_append_right _ hk) k (List.mem_append_right _ hk) l (List.mem_append_left _ hl) (.inl ⟨rfl, c⟩)) h2
  have t3 := e3_value w F3 f1 f2 (nonDeg modes) _ hs hn h3 h4
  have t2' : e2Spec (fun a _ c => ⟨a, c⟩ ∈ f1) (nonDeg modes) ((degPairs modes).map (·.1)) w F3 F4 =
      e2Spec (Listed f1 f2) (nonDeg modes) ((degPairs modes).map (·.1)) w F3 F4 := by
    unfold e2Spec
    congr 2
    refine List.map_congr_left fun k hk => ?_
    refine congrArg (List.sum (α := ℝ)) (List.map_congr_left fun l hl => ?_)
    have c := hn k (List.mem_append_right _ hk) k (List.mem_append_right _ hk) l (List.mem_append_left _ hl)
    rw [frac_neg c, frac_neg (fun c' => c (.inl ⟨rfl, c'⟩))]
  rw [t2'] at t2
  refine congrArg₂ _ (congrArg₂ _ t1 t2) ?_
  by_cases c : rotor = .linear
  · subst c
    rw [Rotor.isLinearR, if_pos rfl, lit_real, show ((0.0 : ℚ) : ℝ) = 0 by norm_num]
    unfold e3Missing
    rw [if_pos rfl, sub_self]
  · rw [not_linearR rotor c, show (rotor = .linear) = False from eq_false c]
    exact t3

/-- Three degenerate modes and a non-degenerate one meet the hypotheses. -/
example : let w : Vec ℝ := fun i => if i = 0 then 3000 else if i = 1 ∨ i = 2 then 1000 else if i = 3 ∨ i = 4 then 1400 else 1700
    let modes : List Mode := [.i1 0, .i2 1 2, .i2 3 4, .i2 5 6]
    ((degPairs modes).map (·.1)).Pairwise (· < ·) ∧ E0Regular (nonDeg modes) w ∧
    (∀ k ∈ (degPairs modes).map (·.1), ∀ l ∈ nonDeg modes, 2 * w k + w l ≠ 0 ∧ 2 * w k - w l ≠ 0) ∧
    (∀ k ∈ (degPairs modes).map (·.1), ∀ l ∈ (degPairs modes).map (·.1), k ≠ l →
      w l ≠ 0 ∧ 2 * w k + w l ≠ 0 ∧ 2 * w k - w l ≠ 0) ∧
    (∀ k ∈ (degPairs modes).map (·.1), ∀ l ∈ (degPairs modes).map (·.1), k ≠ l →
      ∀ m ∈ nonDeg modes, DensOk w k l m) := by
  simp [degPairs, nonDeg, DensOk, E0Regular]
  norm_num

/-- C32 and C34, the part that holds: with at most two degenerate modes, in ascending order, and no listed
resonance, the zero-point constant of a symmetric top is the sum of the textbook terms; for a linear molecule with at most one
degenerate mode. Missing: linear molecules with two (`c109_linear_violated`), three or
more degenerate modes (`c34_triples_violated`, `c34_pairs_violated`) and listed resonances
(`c32_two_mode_violated`, `c32_degenerate_violated`, `c32_degenerate_pair_violated`). -/
theorem c34_partial (rotor : Rotor) (F4 : T4 ℝ) (w : Vec ℝ) (F3 zeta : T3 ℝ) (B : Vec ℝ)
    (f1 : List Fermi1) (f2 : List Fermi2) (modes : List Mode) (wila x g : Mat ℝ) (e0 : ℝ)
    (h : xcals rotor F4 w F3 zeta B f1 f2 modes wila = some (x, g, e0))
    (hr : rotor = .linear → (degPairs modes).length ≤ 1) (hlen : (degPairs modes).length ≤ 2) (hs : ((degPairs modes).map (·.1)).Pairwise (· < ·))
    (hn : ∀ a ∈ nonDeg modes ++ (degPairs modes).map (·.1), ∀ b ∈ nonDeg modes ++ (degPairs modes).map (·.1),
      ∀ c ∈ nonDeg modes ++ (degPairs modes).map (·.1), ¬ Listed f1 f2 a b c)
    (h1 : E0Regular (nonDeg modes) w)
    (h2 : ∀ k ∈ (degPairs modes).map (·.1), ∀ l ∈ nonDeg modes, 2 * w k + w l ≠ 0 ∧ 2 * w k - w l ≠ 0)
    (h3 : ∀ k ∈ (degPairs modes).map (·.1), ∀ l ∈ (degPairs modes).map (·.1), k ≠ l →
      w l ≠ 0 ∧ 2 * w k + w l ≠ 0 ∧ 2 * w k - w l ≠ 0)
    (h4 : ∀ k ∈ (degPairs modes).map (·.1), ∀ l ∈ (degPairs modes).map (·.1), k ≠ l →
      ∀ m ∈ nonDeg modes, DensOk w k l m) :
    e0 = e0Spec (Listed f1 f2) (nonDeg modes) w F3 F4 +
      e2Spec (Listed f1 f2) (nonDeg modes) ((degPairs modes).map (·.1)) w F3 F4 +
      e3Spec (Listed f1 f2) (nonDeg modes) ((degPairs modes).map (·.1)) w F3 := by
  rw [c34_exact rotor F4 w F3 zeta B f1 f2 modes wila x g e0 h hs hn h1 h2 h3 h4]
  congr 1
  by_cases c : rotor = .linear
  · have l1 := hr c
    unfold e3Missing
    rw [if_pos c, sub_self]
    match h : degPairs modes, l1 with
    | [], _ => simp [e3Spec]
    | [a], _ => simp [e3Spec]
    | _ :: _ :: _, l => simp at l
  · rw [show (rotor = .linear) = False from eq_false c, e3Missing_two _ _ _ _ _ (by simpa using hlen) hs, sub_zero]

/-- Two degenerate modes and a non-degenerate one meet the hypotheses. -/
example : let w : Vec ℝ := fun i => if i = 0 then 3000 else if i = 1 ∨ i = 2 then 1000 else 1400
    let modes : List Mode := [.i1 0, .i2 1 2, .i2 3 4]
    ((degPairs modes).map (·.1)).Pairwise (· < ·) ∧ E0Regular (nonDeg modes) w ∧
    (∀ k ∈ (degPairs modes).map (·.1), ∀ l ∈ nonDeg modes, 2 * w k + w l ≠ 0 ∧ 2 * w k - w l ≠ 0) ∧
    (∀ k ∈ (degPairs modes).map (·.1), ∀ l ∈ (degPairs modes).map (·.1), k ≠ l →
      w l ≠ 0 ∧ 2 * w k + w l ≠ 0 ∧ 2 * w k - w l ≠ 0) ∧
    (∀ k ∈ (degPairs modes).map (·.1), ∀ l ∈ (degPairs modes).map (·.1), k ≠ l →
      ∀ m ∈ nonDeg modes, DensOk w k l m) := by
  simp [degPairs, nonDeg, DensOk, E0Regular]
  norm_num

/-- C34 is violated for three degenerate modes: a pair that does not contain the last one does not
contribute together with a non-degenerate mode. -/
theorem c34_pairs_violated : ∃ (F4 : T4 ℝ) (w : Vec ℝ) (F3 zeta : T3 ℝ) (B : Vec ℝ) (modes : List Mode)
    (wila x g : Mat ℝ) (e0 : ℝ),
    xcals .oblateSymmTop F4 w F3 zeta B [] [] modes wila = some (x, g, e0) ∧
    nonDeg modes = [0] ∧ degPairs modes = [(1, 2), (3, 4), (5, 6)] ∧
    (∀ a b c, F3 a b c ≠ 0 → (a, b, c) = (3, 1, 0)) ∧ DensOk w 3 1 0 ∧
    e0 = 0 ∧ e3Spec (Listed [] []) (nonDeg modes) ((degPairs modes).map (·.1)) w F3 ≠ 0 := by
  obtain ⟨⟨x, g, e0⟩, h⟩ : ∃ r, xcals .oblateSymmTop (fun _ _ _ _ => (0 : ℝ))
    (fun i => if i = 0 then 3000 else if i = 1 ∨ i = 2 then 1000 else if i = 3 ∨ i = 4 then 1400 else 1700)
    (fun a b c => if a = 3 ∧ b = 1 ∧ c = 0 then 100 else 0) (fun _ _ _ => 0) (fun _ => 0) [] []
    [.i1 0, .i2 1 2, .i2 3 4, .i2 5 6] (fun _ _ => 0) = some r := ⟨_, rfl⟩
  refine ⟨_, _, _, _, _, _, _, x, g, e0, h, by decide, by decide, ?_, ?_, ?_, ?_⟩
  · intro a b c hh
    simp at hh
    simp [hh]
  · simp [DensOk]; norm_num
  · unfold xcals at h
    rw [Option.map_eq_some_iff] at h
    obtain ⟨x1, -, e⟩ := h
    have e := congrArg (fun r : Mat ℝ × Mat ℝ × ℝ => r.2.2) e
    dsimp only at e
    rw [← e, part_nonDeg, part_degPairs]
    simp [Rotor.isLinearR, makeE0, partition_eq, e0kkl, e0klm, makeE2, makeE3, e3Step, e3sst, e3kst, e3stu,
      nonDeg, degPairs, sumL_real, sq_real, lit_real, one, makeFermiChecks, HMap.empty, HMap.check]
    norm_num
  · simp [e3Spec, gFracs, nonDeg, degPairs, fracUnless, Listed]
    norm_num

/-- C32 is violated by a listed resonance of a degenerate mode with a non-degenerate one: the remaining
fraction has the wrong sign. -/
theorem c32_degenerate_violated : ∃ (F4 : T4 ℝ) (w : Vec ℝ) (F3 zeta : T3 ℝ) (B : Vec ℝ) (f1 : List Fermi1)
    (modes : List Mode) (wila x g : Mat ℝ) (e0 : ℝ),
    xcals .oblateSymmTop F4 w F3 zeta B f1 [] modes wila = some (x, g, e0) ∧
    (∀ a b c, F3 a b c ≠ 0 → (a, b, c) = (1, 1, 0)) ∧ 2 * w 1 + w 0 ≠ 0 ∧ 2 * w 1 - w 0 ≠ 0 ∧
    e0 ≠ e0Spec (Listed f1 []) (nonDeg modes) w F3 F4 +
      e2Spec (Listed f1 []) (nonDeg modes) ((degPairs modes).map (·.1)) w F3 F4 +
      e3Spec (Listed f1 []) (nonDeg modes) ((degPairs modes).map (·.1)) w F3 := by
  obtain ⟨⟨x, g, e0⟩, h⟩ : ∃ r, xcals .oblateSymmTop (fun _ _ _ _ => (0 : ℝ))
    (fun i => if i = 0 then 1900 else 1000)
    (fun a b c => if a = 1 ∧ b = 1 ∧ c = 0 then 100 else 0) (fun _ _ _ => 0) (fun _ => 0) [⟨1, 0⟩] []
    [.i1 0, .i2 1 2] (fun _ _ => 0) = some r := ⟨_, rfl⟩
  refine ⟨_, _, _, _, _, _, _, _, x, g, e0, h, ?_, ?_, ?_, ?_⟩
  · intro a b c hh
    simp at hh
    simp [hh]
  · norm_num
  · norm_num
  · unfold xcals at h
    rw [Option.map_eq_some_iff] at h
    obtain ⟨x1, -, e⟩ := h
    have e := congrArg (fun r : Mat ℝ × Mat ℝ × ℝ => r.2.2) e
    dsimp only at e
    rw [← e, part_nonDeg, part_degPairs]
    simp [Rotor.isLinearR, makeE0, partition_eq, makeE2, makeE3, e3Step, e0Spec, e2Spec, e3Spec,
      nonDeg, degPairs, sumL_real, sq_real, lit_real, makeFermiChecks, fermiStep1, HMap.insert, HMap.empty,
      HMap.check, fracUnless, Listed]
    norm_num

/-- C32 is violated by a listed resonance between two degenerate modes: the code squares the frequencies in
the numerator and the denominator, so the term does not even have the right dimension. -/
theorem c32_degenerate_pair_violated : ∃ (F4 : T4 ℝ) (w : Vec ℝ) (F3 zeta : T3 ℝ) (B : Vec ℝ) (f1 : List Fermi1)
    (modes : List Mode) (wila x g : Mat ℝ) (e0 : ℝ),
    xcals .oblateSymmTop F4 w F3 zeta B f1 [] modes wila = some (x, g, e0) ∧
    (∀ a b c, F3 a b c ≠ 0 → (a, b, c) = (0, 0, 2)) ∧ w 2 ≠ 0 ∧ 2 * w 0 + w 2 ≠ 0 ∧ 2 * w 0 - w 2 ≠ 0 ∧
    e0 ≠ e0Spec (Listed f1 []) (nonDeg modes) w F3 F4 +
      e2Spec (Listed f1 []) (nonDeg modes) ((degPairs modes).map (·.1)) w F3 F4 +
      e3Spec (Listed f1 []) (nonDeg modes) ((degPairs modes).map (·.1)) w F3 := by
  obtain ⟨⟨x, g, e0⟩, h⟩ : ∃ r, xcals .oblateSymmTop (fun _ _ _ _ => (0 : ℝ))
    (fun i => if i = 2 ∨ i = 3 then 1900 else 1000)
    (fun a b c => if a = 0 ∧ b = 0 ∧ c = 2 then 100 else 0) (fun _ _ _ => 0) (fun _ => 0) [⟨0, 2⟩] []
    [.i2 0 1, .i2 2 3] (fun _ _ => 0) = some r := ⟨_, rfl⟩
  refine ⟨_, _, _, _, _, _, _, _, x, g, e0, h, ?_, ?_, ?_, ?_, ?_⟩
  · intro a b c hh
    simp at hh
    simp [hh]
  · norm_num
  · norm_num
  · norm_num
  · unfold xcals at h
    rw [Option.map_eq_some_iff] at h
    obtain ⟨x1, -, e⟩ := h
    have e := congrArg (fun r : Mat ℝ × Mat ℝ × ℝ => r.2.2) e
    dsimp only at e
    rw [← e, part_nonDeg, part_degPairs]
    simp [Rotor.isLinearR, makeE0, partition_eq, makeE2, makeE3, e3Step, e3sst, e3kst, e3stu, e0Spec, e2Spec, e3Spec,
      nonDeg, degPairs, sumL_real, sq_real, lit_real, makeFermiChecks, fermiStep1, HMap.insert, HMap.empty,
      HMap.check, fracUnless, Listed]
    norm_num

end Real

end Verif
