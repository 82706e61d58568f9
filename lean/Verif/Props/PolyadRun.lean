import Verif.Model.PolyadRun
import Verif.Props.Polyad
import Verif.Props.Energy
import Verif.Props.State
import Verif.Props.Run
import Verif.Lemmas.WholeExample

/-!
# Runs with the cargo feature `polyad`: C111
-/

namespace Verif

variable {α ι : Type} [Arith α]

theorem res2a_some (t : PolyadCtx α) (n : Nat) (hn : n ≤ t.i1mode.length) {i j : Nat} (hi : i < n) (hj : j < n) (hij : i ≠ j) :
    (∃ v, res2a t i i j j = some v) ∧ (∃ v, res2a t i i i j = some v) ∧
    (∀ k < n, k ≠ i → k ≠ j → (∃ v, res2a t i k j k = some v) ∧ ∃ v, res2a t i i j k = some v) := by
  have g : ∀ a < n, ∃ x, t.i1mode[a]? = some x := fun a ha => ⟨_, List.getElem?_eq_getElem (by omega)⟩
  obtain ⟨x, hx⟩ := g i hi
  obtain ⟨y, hy⟩ := g j hj
  refine ⟨?_, ?_, fun k hk h1 h2 => ?_⟩
  · unfold res2a
    rw [if_pos ⟨rfl, rfl⟩, hx, hy]
    exact ⟨_, rfl⟩
  · unfold res2a
    rw [if_neg (by omega), if_pos ⟨rfl, rfl⟩, hx, hy]
    exact ⟨_, rfl⟩
  · obtain ⟨z, hz⟩ := g k hk
    constructor
    · unfold res2a
      rw [if_neg (by omega), if_neg (by omega), if_pos ⟨rfl, hij, Ne.symm h1⟩, hx, hy, hz]
      exact ⟨_, rfl⟩
    · unfold res2a
      rw [if_neg (by omega), if_neg (by omega), if_neg (by omega), if_pos ⟨rfl, hij, Ne.symm h2⟩, hx, hy, hz]
      exact ⟨_, rfl⟩

theorem foldlM_total {X Y : Type} (l : List X) (f : Y → X → Option Y) (y : Y) (h : ∀ x ∈ l, ∀ y, ∃ y', f y x = some y') :
    ∃ y', l.foldlM f y = some y' := by
  induction l generalizing y with
  | nil => exact ⟨y, rfl⟩
  | cons x l ih =>
    obtain ⟨y', hy⟩ := h x (by simp) y
    rw [List.foldlM_cons, hy]
    exact ih y' fun x hx => h x (by simp [hx])

/-- The element of the resonance matrix between two states cannot be computed exactly if the states are four quanta apart, in
two or more modes, and either differ in four modes or in the total number of quanta. -/
theorem c111_element (t : PolyadCtx α) (n : Nat) (a b : Nat → Nat) (hn : n ≤ t.i1mode.length) :
    genrsa t n a b = none ↔ quantaApart n a b = 4 ∧ 2 ≤ modesApart n a b ∧
      (modesApart n a b = 4 ∨ ∑ i ∈ Finset.range n, a i ≠ ∑ i ∈ Finset.range n, b i) := by
  have hnet : netApart n a b = 0 ↔ ∑ i ∈ Finset.range n, a i = ∑ i ∈ Finset.range n, b i := by
    unfold netApart
    rw [Finset.sum_sub_distrib, sub_eq_zero, eq_comm]
    exact_mod_cast Iff.rfl
  rw [ne_eq, ← hnet]
  by_cases h4 : 4 < quantaApart n a b
  · rw [c61_too_far t n a b h4]
    simp only [reduceCtorEq, false_iff]
    omega
  by_cases hm4 : modesApart n a b = 4
  · have hq : quantaApart n a b = 4 := by
      have := diffList_length_le n a b
      rw [diffList_length] at this
      omega
    rw [c61_four_modes_unimplemented t n a b hm4 hq]
    simp [hq, hm4]
  rw [genrsa_eq, if_neg h4, ← diffList_length, quantaApart_diffList]
  rw [← diffList_length] at hm4
  rw [quantaApart_diffList] at h4
  have hp := diffList_indx n a b
  have hb : ∀ d ∈ diffList n a b, d.indx < n ∧ d.ndiff ≠ 0 := fun d hd => ⟨(mem_diffList hd).1, (mem_diffList hd).2.2.1⟩
  have hag : ∀ k, k < n → (∀ d ∈ diffList n a b, d.indx ≠ k) → a k = b k := fun k hk hd => by
    by_contra hne
    exact hd _ (mem_diffList_of_ne hk hne) rfl
  match hl : diffList n a b with
  | [] => simp [genrsaCase]
  | [x] => simp [genrsaCase]
  | [x, y] =>
    rw [hl] at hp hb h4 hag
    simp only [List.map_cons, List.map_nil, List.pairwise_cons, List.mem_cons, List.not_mem_nil, or_false, List.sum_cons,
      List.sum_nil, forall_eq_or_imp, forall_eq] at hp hb h4
    obtain ⟨hxy, -⟩ := hp
    obtain ⟨⟨hx, hx0⟩, hy, hy0⟩ := hb
    obtain ⟨⟨v1, e1⟩, ⟨v2, e2⟩, e3⟩ := res2a_some t n hn hx hy (by omega)
    obtain ⟨-, ⟨v4, e4⟩, -⟩ := res2a_some t n hn hy hx (by omega)
    simp only [List.map_cons, List.map_nil, List.sum_cons, List.sum_nil, genrsaCase, List.length_cons, List.length_nil]
    by_cases q4 : x.ndiff.natAbs + (y.ndiff.natAbs + 0) = 4
    · rw [if_pos q4]
      by_cases hz : netApart n a b = 0
      · simp [hz, e1]
      · simp [hz]
        omega
    · rw [if_neg q4]
      simp only [q4, false_and, iff_false]
      by_cases q3 : x.ndiff.natAbs + (y.ndiff.natAbs + 0) = 3
      · rw [if_pos q3]
        split_ifs <;> simp
      rw [if_neg q3]
      by_cases q2 : x.ndiff.natAbs + (y.ndiff.natAbs + 0) = 2
      · rw [if_pos q2]
        unfold genrsaOneOne
        obtain ⟨v, hv⟩ := foldlM_total (List.range n) (fun val3 k =>
          if k ≠ x.indx ∧ k ≠ y.indx then
            if a k ≠ b k then none
            else do
              let r ← res2a t x.indx k y.indx k
              return val3 + Arith.lit 2.0 * r *
                Arith.sqrt (ofNat ((x.nmin + 1) * (y.nmin + 1)) * sq (ofNat (a k) + Arith.lit 0.5) / Arith.lit 16.0)
          else some val3) (Arith.lit 0.0) (fun k hk val => by
            have hk := List.mem_range.1 hk
            split_ifs with h1 h2
            · exact absurd (hag k hk (by simp; exact ⟨Ne.symm h1.1, Ne.symm h1.2⟩)) h2
            · obtain ⟨⟨r, hr⟩, -⟩ := e3 k hk h1.1 h1.2
              rw [hr]
              exact ⟨_, rfl⟩
            · exact ⟨_, rfl⟩)
        rw [e2, e4]
        simp only [Option.bind_eq_bind, Option.bind_some]
        erw [hv]
        simp
      · rw [if_neg q2]
        simp
  | [x, y, z] =>
    rw [hl] at hp hb h4
    simp only [List.map_cons, List.map_nil, List.pairwise_cons, List.mem_cons, List.not_mem_nil, or_false, List.sum_cons,
      List.sum_nil, forall_eq_or_imp, forall_eq] at hp hb h4
    obtain ⟨⟨hxy, hxz⟩, hyz, -⟩ := hp
    obtain ⟨⟨hx, hx0⟩, ⟨hy, hy0⟩, hz, hz0⟩ := hb
    simp only [List.map_cons, List.map_nil, List.sum_cons, List.sum_nil, genrsaCase, List.length_cons, List.length_nil]
    by_cases q4 : x.ndiff.natAbs + (y.ndiff.natAbs + (z.ndiff.natAbs + 0)) = 4
    · rw [if_pos q4]
      by_cases hne : netApart n a b = 0
      · rw [if_pos hne]
        obtain ⟨-, -, f⟩ := res2a_some t n hn hx hy (by omega)
        obtain ⟨-, v1, e1⟩ := f z.indx hz (by omega) (by omega)
        obtain ⟨-, -, f⟩ := res2a_some t n hn hy hx (by omega)
        obtain ⟨-, v2, e2⟩ := f z.indx hz (by omega) (by omega)
        obtain ⟨-, -, f⟩ := res2a_some t n hn hz hy (by omega)
        obtain ⟨-, v3, e3⟩ := f x.indx hx (by omega) (by omega)
        rcases (by omega : (x.ndiff.natAbs = 2 ∧ y.ndiff.natAbs = 1 ∧ z.ndiff.natAbs = 1) ∨
          (x.ndiff.natAbs = 1 ∧ y.ndiff.natAbs = 2 ∧ z.ndiff.natAbs = 1) ∨
          (x.ndiff.natAbs = 1 ∧ y.ndiff.natAbs = 1 ∧ z.ndiff.natAbs = 2)) with ⟨p1, p2, p3⟩ | ⟨p1, p2, p3⟩ | ⟨p1, p2, p3⟩ <;>
          simp [sortAabc, List.range_succ, p1, p2, p3, e1, e2, e3, hne]
      · simp [hne]
        omega
    · rw [if_neg q4, if_pos (by omega)]
      simp only [q4, false_and, iff_false]
      split_ifs <;> simp
  | [x, y, z, u] => rw [hl] at hm4; simp at hm4
  | x :: y :: z :: u :: v :: l =>
    exfalso
    have := diffList_length_le n a b
    rw [quantaApart_diffList, hl] at this
    rw [hl] at h4
    simp at this h4
    omega

/-- Two quanta in each of two modes, coupled with the ground state. -/
example (t : PolyadCtx α) (h : t.i1mode.length = 2) : genrsa t 2 (fun _ => 0) (fun _ => 2) = none :=
  (c111_element t 2 _ _ (by omega)).2 (by decide)

/-- Whether the element between two rows of the table, cut to `n` modes, cannot be computed. -/
theorem table_elements : ∀ n ≤ 12, ∀ i < 7, ∀ j < i,
    ¬(quantaApart n (fun k => (iirstTable.getD i []).getD k 0) (fun k => (iirstTable.getD j []).getD k 0) = 4 ∧
      2 ≤ modesApart n (fun k => (iirstTable.getD i []).getD k 0) (fun k => (iirstTable.getD j []).getD k 0) ∧
      (modesApart n (fun k => (iirstTable.getD i []).getD k 0) (fun k => (iirstTable.getD j []).getD k 0) = 4 ∨
        ∑ m ∈ Finset.range n, (iirstTable.getD i []).getD m 0 ≠ ∑ m ∈ Finset.range n, (iirstTable.getD j []).getD m 0)) := by
  decide +kernel

/-- `resona` with the states written into the code completes exactly for at most twelve modes and at least seven energies. -/
theorem c111_resona (engLen : Nat) (i1mode : List Nat) (w rotcon : Vec α) (zmat f3 : T3 α) (f4 : T4 α) (x : Mat α)
    (e0 : α) (fermi1 : List Fermi1) (fermi2 : List Fermi2) :
    (resona iirstTable engLen i1mode w rotcon zmat f3 f4 x e0 fermi1 fermi2).isSome ↔ i1mode.length ≤ 12 ∧ 7 ≤ engLen := by
  constructor
  · intro h
    by_contra hc
    rw [c72_table_panics engLen i1mode w rotcon zmat f3 f4 x e0 fermi1 fermi2 (by omega)] at h
    simp at h
  · rintro ⟨h1, h2⟩
    unfold resona
    dsimp only
    rw [if_neg (by simp [iirstTable]; omega)]
    rw [Option.isSome_iff_exists]
    refine foldlM_total _ _ _ fun p hp m => ?_
    simp only [List.mem_flatMap, List.mem_range, List.mem_map] at hp
    obtain ⟨i, hi, j, hj, rfl⟩ := hp
    dsimp only
    split_ifs with hij
    · exact ⟨_, rfl⟩
    · have hs := mt (c111_element (⟨i1mode, w, rotcon, zmat, f3, f4, initResDenom w fermi1 fermi2⟩ : PolyadCtx α) i1mode.length
        (fun k => (iirstTable.getD i []).getD k 0) (fun k => (iirstTable.getD j []).getD k 0) le_rfl).1
        (table_elements _ h1 i hi j (by omega))
      obtain ⟨v, hv⟩ := Option.ne_none_iff_exists'.1 hs
      rw [hv]
      exact ⟨_, rfl⟩

theorem resonaEnergies_some (iirst : List (List Nat)) (i1mode : List Nat) (freq : Vec α) (x : Mat α) (e0 : α) (eng : List α)
    (h : iirst.length ≤ eng.length) :
    ∃ eng', resonaEnergies iirst i1mode freq x e0 eng = some eng' ∧ eng'.length = eng.length := by
  unfold resonaEnergies
  have : ∀ l : List Nat, (∀ i ∈ l, i < iirst.length) → ∀ eng : List α, iirst.length ≤ eng.length → ∃ eng',
      l.foldlM (fun eng ist =>
        setAt eng ist (resonaEnergy i1mode freq x e0 fun ii => (iirst.getD ist []).getD ii 0)) eng = some eng' ∧
      eng'.length = eng.length := by
    intro l
    induction l with
    | nil => exact fun _ eng _ => ⟨eng, rfl, rfl⟩
    | cons i l ih =>
      intro hl eng he
      have hi := hl i (by simp)
      rw [List.foldlM_cons]
      unfold setAt
      rw [if_pos (by omega)]
      obtain ⟨e', h1, h2⟩ := ih (fun i hi => hl i (by simp [hi])) (eng.set i
        (resonaEnergy i1mode freq x e0 fun ii => (iirst.getD i []).getD ii 0)) (by simpa using he)
      exact ⟨e', h1, by simpa using h2⟩
  exact this _ (fun i hi => List.mem_range.1 hi) eng h

/-- The step in `finish`: nothing for symmetric tops; otherwise it completes exactly for three to twelve modes, and then
leaves as many energies as there were. -/
theorem setAt_parts {eng eng' : List α} {i : Nat} {v : α} (h : setAt eng i v = some eng') :
    i < eng.length ∧ eng' = eng.set i v := by
  unfold setAt at h
  split at h
  · rename_i hi
    exact ⟨hi, (Option.some.inj h).symm⟩
  · cases h

theorem resonaEnergies_get {iirst : List (List Nat)} {i1mode : List Nat} {freq : Vec α} {x : Mat α} {e0 : α} {eng eng' : List α}
    (h : resonaEnergies iirst i1mode freq x e0 eng = some eng') (i : Nat) :
    eng'[i]? = if i < iirst.length then some (resonaEnergy i1mode freq x e0 fun ii => (iirst.getD i []).getD ii 0) else eng[i]? := by
  unfold resonaEnergies at h
  have : ∀ (n : Nat) (eng' : List α), (List.range n).foldlM (fun eng ist =>
      setAt eng ist (resonaEnergy i1mode freq x e0 fun ii => (iirst.getD ist []).getD ii 0)) eng = some eng' →
      eng'[i]? = if i < n then some (resonaEnergy i1mode freq x e0 fun ii => (iirst.getD i []).getD ii 0) else eng[i]? := by
    intro n
    induction n with
    | zero =>
      intro eng' h
      rw [List.range_zero, List.foldlM_nil] at h
      rw [if_neg (by omega), Option.some.inj h]
    | succ n ih =>
      intro eng' h
      rw [List.range_succ, List.foldlM_append] at h
      simp only [Option.bind_eq_bind, Option.bind_eq_some_iff, List.foldlM_cons, List.foldlM_nil] at h
      obtain ⟨e1, h1, e2, h2, h3⟩ := h
      obtain ⟨hn, rfl⟩ := setAt_parts h2
      rw [← Option.some.inj h3, List.getElem?_set]
      by_cases c : n = i
      · subst c
        rw [if_pos rfl, if_pos hn, if_pos (by omega)]
      · rw [if_neg c, ih e1 h1]
        by_cases d : i < n
        · rw [if_pos d, if_pos (by omega)]
        · rw [if_neg d, if_neg (by omega)]
  exact this _ _ h

/-- C111, the energies which the feature computes for an asymmetric top: for each state of the table the energy above the ground state,
without resonances. They never reach the output, see `c111_run`. -/
theorem c111_energies (s : SpectroIn ℝ) (hs : s.rotor.isSymTop = false) (w : Vec ℝ) (f3 : T3 ℝ) (f4 : T4 ℝ) (zmat : T3 ℝ) (x : Mat ℝ)
    (e0 : ℝ) (r : Restst) (eng eng' : List ℝ) (h : polyadStep s w f3 f4 zmat x e0 r eng = some eng') (i : Nat) :
    eng'[i]? = match iirstTable[i]? with
      | some q => some (∑ k ∈ Finset.range (nonDeg r.modes).length, (w ((nonDeg r.modes).getD k 0) * q.getD k 0 +
          ∑ l ∈ Finset.range (k + 1), x ((nonDeg r.modes).getD k 0) ((nonDeg r.modes).getD l 0) *
            (q.getD k 0 * q.getD l 0 + (q.getD k 0 + q.getD l 0) / 2)))
      | none => eng[i]? := by
  unfold polyadStep at h
  rw [hs] at h
  simp only [Bool.false_eq_true, if_false, Option.bind_eq_bind, Option.bind_eq_some_iff, part_nonDeg] at h
  obtain ⟨-, -, h⟩ := h
  rw [resonaEnergies_get h]
  cases hq : iirstTable[i]? with
  | none => rw [if_neg (by rw [List.getElem?_eq_none_iff] at hq; omega)]
  | some q =>
    rw [if_pos (List.getElem?_eq_some_iff.1 hq).1, c72_energy]
    have : iirstTable.getD i [] = q := by rw [List.getD_eq_getElem?_getD, hq]; rfl
    rw [this]

theorem polyadStep_cases (s : SpectroIn α) (w : Vec α) (f3 : T3 α) (f4 : T4 α) (zmat z' : T3 α) (x : Mat α) (e0 : α)
    (r : Restst) (hr : reststNew s.rotor s.nvib s.i2vib z' f3 w = some r) :
    if s.rotor.isSymTop = true ∨ (3 ≤ s.nvib ∧ s.nvib ≤ 12) then
      ∃ eng, polyadStep s w f3 f4 zmat x e0 r (List.replicate r.states.length (Arith.lit 0.0)) = some eng ∧
        eng.length = r.states.length
    else polyadStep s w f3 f4 zmat x e0 r (List.replicate r.states.length (Arith.lit 0.0)) = none := by
  by_cases hs : s.rotor.isSymTop = true
  · rw [if_pos (.inl hs)]
    unfold polyadStep
    rw [if_pos hs]
    exact ⟨_, rfl, by simp⟩
  unfold reststNew at hr
  simp only [Option.bind_eq_bind, Option.bind_eq_some_iff] at hr
  obtain ⟨cor, -, f1, -, f2, -, dd, -, t, ht, hr⟩ := hr
  obtain rfl := Option.some.inj hr
  have hm : degModes s.rotor s.nvib w = (List.range s.nvib).map Mode.i1 := by unfold degModes; rw [if_neg hs]
  have hpart : Mode.partition ((List.range s.nvib).map Mode.i1) = (List.range s.nvib, [], []) := by
    have : ∀ (l : List Nat) (a : List Nat), (l.map Mode.i1).foldl (fun (ret : List Nat × List (Nat × Nat) × List (Nat × Nat × Nat)) m =>
        match m with
        | .i1 i => (ret.1 ++ [i], ret.2.1, ret.2.2)
        | .i2 i j => (ret.1, ret.2.1 ++ [(i, j)], ret.2.2)
        | .i3 i j k => (ret.1, ret.2.1, ret.2.2 ++ [(i, j, k)])) (a, [], []) = (a ++ l, [], []) := by
      intro l
      induction l with
      | nil => intro a; simp
      | cons i l ih => intro a; simp only [List.map_cons, List.foldl_cons]; rw [ih]; simp
    have h0 := this (List.range s.nvib) []
    rw [List.nil_append] at h0
    exact h0
  have hlen := c19_length s.nvib s.i2vib _ t ht _ _ _ (c18_count _)
  rw [hm, hpart] at hlen
  simp only [List.length_range, List.length_nil, add_zero] at hlen
  have h7 : 7 ≤ t.states.length ↔ 3 ≤ s.nvib := by
    rw [hlen]
    constructor
    · intro h
      by_contra hc
      interval_cases hv : s.nvib <;> simp at h
    · intro h; omega
  unfold polyadStep
  rw [if_neg hs]
  simp only [hm, hpart, List.length_replicate]
  have hres := c111_resona (α := α) t.states.length (List.range s.nvib) w s.rotcon zmat f3 f4 x e0 f1 f2
  rw [List.length_range, h7] at hres
  generalize resona iirstTable t.states.length (List.range s.nvib) w s.rotcon zmat f3 f4 x e0 f1 f2 = q at *
  rcases q with _ | m
  · simp only [Option.isSome_none, Bool.false_eq_true, false_iff] at hres
    rw [if_neg (by tauto)]
    rfl
  · simp only [Option.isSome_some, true_iff] at hres
    rw [if_pos (by tauto)]
    obtain ⟨e, h1, h2⟩ := resonaEnergies_some iirstTable (List.range s.nvib) w x e0
      (List.replicate t.states.length (Arith.lit 0.0)) (by
        rw [List.length_replicate]
        exact h7.2 hres.2)
    exact ⟨e, h1, by simpa using h2⟩

/-- C111: compiled with the feature `polyad`, a run reports what it reports without the feature, except that a run of a
molecule which is not a symmetric top panics unless it has between three and twelve vibrations. -/
theorem c111_run (s : SpectroIn α) (o : Oracles α ι) (fc2 : Mat α) (f3x : T3 α) (f4x : T4 α) :
    runPolyad s o (.quartic fc2 f3x f4x) =
      if s.rotor.isSymTop = true ∨ (3 ≤ s.nvib ∧ s.nvib ≤ 12) then run s o (.quartic fc2 f3x f4x) else none := by
  have key : ∀ freq f3 f4 irreps lxm lx, finishPolyad s o freq f3 f4 irreps lxm lx =
      if s.rotor.isSymTop = true ∨ (3 ≤ s.nvib ∧ s.nvib ≤ 12) then finish s o freq f3 f4 irreps lxm lx else none := by
    intro freq f3 f4 irreps lxm lx
    unfold finishPolyad finish
    dsimp only
    rcases Quartic.new s.rotor s.nvib s.rotcon s.primat (vecOf freq) _ with _ | q
    · simp
    simp only [Option.bind_eq_bind, Option.bind_some]
    rcases hr : reststNew s.rotor s.nvib s.i2vib (makeZmat s.nvib s.natom lxm) f3 (vecOf freq) with _ | r
    · simp
    simp only [Option.bind_some]
    rcases finishX s (vecOf freq) f3 f4 (makeZmat s.nvib s.natom lxm) (wilsonA s.nvib s.natom s.pos lxm s.weights) r with _ | x
    · simp
    simp only [Option.bind_some]
    rcases finishFunds s freq x.1 x.2.1 r with _ | hf
    · simp
    simp only [Option.bind_some]
    have hc := polyadStep_cases s (vecOf freq) f3 f4 (makeZmat s.nvib s.natom lxm) _ x.1 x.2.2 r hr
    split_ifs at hc ⊢ with h
    · obtain ⟨e, he, hl⟩ := hc
      rw [he, Option.bind_some, (c39_initial o.eigen2 (vecOf freq) x.1 x.2.1 r f3 x.2.2 e
        (List.replicate r.states.length (Arith.lit 0.0)) hl (by simp)).2]
    · rw [hc, Option.bind_none]
  unfold runPolyad run
  dsimp only
  simp only [Derivative.fc2]
  rcases runModes s o fc2 with _ | m
  · simp
  simp only [Option.bind_eq_bind, Option.bind_some]
  rcases force4 s.n3n (rot4th s.n3n s.natom s.axes f4x) m.lx s.nvib (vecOf m.freq) with _ | f4
  · simp
  simp only [Option.bind_some]
  exact key _ _ _ _ _ _

/-- A run with three vibrations that completes without the feature and with it. -/
example : ∃ (fc2 : Mat ℝ) (out : Output ℝ Nat),
    run exampleTop exactOracles2 (.quartic fc2 (fun _ _ _ => 2) (fun _ _ _ _ => 3)) = some out ∧
    runPolyad exampleTop exactOracles2 (.quartic fc2 (fun _ _ _ => 2) (fun _ _ _ _ => 3)) = some out := by
  obtain ⟨fc2, out, h, -⟩ := spread_run (fun _ _ _ => 2) (fun _ _ _ _ => 3)
  refine ⟨fc2, out, h, ?_⟩
  rw [c111_run, if_pos (.inr ⟨by decide, by decide⟩), h]

/-- The hypotheses of `c111_energies` are met in that run. -/
example : exampleTop.rotor.isSymTop = false ∧ ∃ (w : Vec ℝ) (f3 : T3 ℝ) (f4 : T4 ℝ) (zmat : T3 ℝ) (x : Mat ℝ) (e0 : ℝ) (r : Restst)
    (eng eng' : List ℝ), polyadStep exampleTop w f3 f4 zmat x e0 r eng = some eng' := by
  obtain ⟨fc2, out, h, -⟩ := spread_run (fun _ _ _ => 2) (fun _ _ _ _ => 3)
  obtain ⟨m, F4, hm, hF, hfin⟩ := run_quartic h
  obtain ⟨r, x, hf, zc, v, v', hrs, -⟩ := finish_parts hfin
  have := polyadStep_cases exampleTop _ _ (f4Of F4) (fun _ _ _ => 0) _ (fun _ _ => 0) 0 _ hrs
  rw [if_pos (.inr ⟨by decide, by decide⟩)] at this
  obtain ⟨eng, he, -⟩ := this
  exact ⟨by decide, _, _, _, fun _ _ _ => 0, _, _, _, _, _, he⟩

/-- C111, harmonic runs: the feature changes nothing. -/
theorem c111_harmonic (s : SpectroIn α) (o : Oracles α ι) (fc2 : Mat α) :
    runPolyad s o (.harmonic fc2) = run s o (.harmonic fc2) := rfl

/-- C111, cubic runs: they panic with the feature as without it, even where a harmonic run of the same molecule succeeds. -/
theorem c111_cubic (s : SpectroIn α) (o : Oracles α ι) (fc2 : Mat α) (f3x : T3 α) :
    runPolyad s o (.cubic fc2 f3x) = none ∧ run s o (.cubic fc2 f3x) = none := by
  refine ⟨rfl, ?_⟩
  simp [run]

end Verif
