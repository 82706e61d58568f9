import Verif.Lemmas.InputShow

/-!
# C52-C55: reading and writing input files
-/

namespace Verif

attribute [local irreducible] isWs

theorem finishRead_iff (s r : Input) : finishRead s = some r ↔ ∃ h1, s.header[1]? = some h1 ∧
    (h1 = -1 ∧ (∃ as, s.weights.foldlM setWeight s.atoms = some as ∧ r = { s with atoms := as }) ∨
     h1 ≠ -1 ∧ r = s) := by
  unfold finishRead
  simp only [Option.bind_eq_bind, Option.bind_eq_some_iff]
  constructor
  · rintro ⟨h1, hh, h⟩
    refine ⟨h1, hh, ?_⟩
    split at h
    · rename_i e
      simp only [Option.bind_eq_some_iff, Option.pure_def, Option.some.injEq] at h
      obtain ⟨as, h2, h3⟩ := h
      exact .inl ⟨e, as, h2, h3.symm⟩
    · rename_i e
      exact .inr ⟨e, (Option.some.inj h).symm⟩
  · rintro ⟨h1, hh, h⟩
    refine ⟨h1, hh, ?_⟩
    rcases h with ⟨e, as, h2, rfl⟩ | ⟨e, rfl⟩
    · rw [if_pos e, h2]
      rfl
    · rw [if_neg e]
      rfl

theorem readInput_some {lines pre : List Text} {bs : List Block} {cut : List Text} (hf : FileOf lines pre bs cut)
    (r : Input) : readInput lines = some r ↔ ∃ h m as ds ws cs dg,
      (content bs .header).foldlM headerLine [] = some h ∧
      (content bs .geom).foldlM geomLine ([], [], []) = some (m, as, ds) ∧
      (content bs .weight).foldlM weightLine [] = some ws ∧
      (content bs .curvil).foldlM curvilLine [] = some cs ∧
      (content bs .degmode).foldlM degmodeLine [] = some dg ∧ finishRead ⟨h, as, ws, cs, dg, ds⟩ = some r := by
  obtain ⟨rfl, h1, h2, h3⟩ := hf
  rw [readInput_parts pre bs cut h1 h2 h3]
  simp only [assemble, Option.bind_eq_bind, Option.bind_eq_some_iff, Option.pure_def, Option.some.injEq]
  constructor
  · rintro ⟨rd, ⟨h, hh, ⟨m, as, ds⟩, hg, ws, hw, cs, hc, dg, hd, rfl⟩, hr⟩
    exact ⟨h, m, as, ds, ws, cs, dg, hh, hg, hw, hc, hd, hr⟩
  · rintro ⟨h, m, as, ds, ws, cs, dg, hh, hg, hw, hc, hd, hr⟩
    exact ⟨_, ⟨h, hh, ⟨m, as, ds⟩, hg, ws, hw, cs, hc, dg, hd, rfl⟩, hr⟩

theorem forall₂_getElem? {α β : Type} {R : α → β → Prop} {l : List α} {t : List β}
    (h : List.Forall₂ R l t) (i : Nat) : (∀ a, l[i]? = some a → ∃ b, t[i]? = some b ∧ R a b) ∧
      ∀ b, t[i]? = some b → ∃ a, l[i]? = some a ∧ R a b := by
  induction h generalizing i with
  | nil => simp
  | cons h1 h2 ih =>
    cases i with
    | zero => simp [h1]
    | succ i => simpa using ih i

theorem forall₂_of_getElem? {α β : Type} {R : α → β → Prop} {l : List α} {t : List β} (hl : l.length = t.length)
    (h : ∀ (i : Nat) a b, l[i]? = some a → t[i]? = some b → R a b) : List.Forall₂ R l t := by
  rw [List.forall₂_iff_get]
  exact ⟨hl, fun i h1 h2 => h i _ _ (by simp [h1]) (by simp [h2])⟩

/-- The end of `read` changes only the weights of atoms. -/
theorem finishRead_keeps {s r : Input} (h : finishRead s = some r) : r.header = s.header ∧ r.weights = s.weights ∧
    r.curvils = s.curvils ∧ r.degmodes = s.degmodes ∧ r.dummies = s.dummies ∧ r.atoms.length = s.atoms.length ∧
    ∀ (i : Nat) a', r.atoms[i]? = some a' → ∃ a, s.atoms[i]? = some a ∧ a'.num = a.num ∧ a'.x = a.x ∧ a'.y = a.y ∧
      a'.z = a.z := by
  obtain ⟨h1, -, ⟨-, as, hw, rfl⟩ | ⟨-, rfl⟩⟩ := (finishRead_iff _ _).1 h
  · obtain ⟨-, h2, h3⟩ := setWeights_spec _ _ _ hw
    refine ⟨rfl, rfl, rfl, rfl, rfl, h2, fun i a' hi => ?_⟩
    obtain ⟨a, ha, e1, e2, e3, e4, -⟩ := h3 i a' hi
    exact ⟨a, ha, e1, e2, e3, e4⟩
  · exact ⟨rfl, rfl, rfl, rfl, rfl, rfl, fun i a' hi => ⟨a', hi, rfl, rfl, rfl, rfl⟩⟩

/-! ## C52 -/

/-- C52: every file consists of lines before the first title, whole sections, and perhaps a last title without its
count line. -/
theorem c52_decompose (lines : List Text) : ∃ pre bs cut, FileOf lines pre bs cut := lines_decompose lines

/-- C52: reading gives exactly what the sections contain. The lines before the first title, the count lines, the
ignored sections and a cut-off title do not occur in the result. -/
theorem c52_contents {lines pre : List Text} {bs : List Block} {cut : List Text} (hf : FileOf lines pre bs cut)
    (r : Input) (h : readInput lines = some r) :
    List.Forall₂ IntField ((content bs .header).flatMap fieldsOf) r.header ∧
    List.Forall₂ AtomRow (atomLines (content bs .geom)) r.atoms ∧
    List.Forall₂ (fun l _ => ∃ x y z, DummyRow l x y z) (dummyLines (content bs .geom)) r.dummies ∧
    List.Forall₂ WeightRow (content bs .weight) r.weights ∧
    List.Forall₂ CurvilRow (nonBlank (content bs .curvil)) r.curvils ∧
    List.Forall₂ NatRow (nonBlank (content bs .degmode)) r.degmodes := by
  obtain ⟨hd, m, as, ds, ws, cs, dg, h1, h2, h3, h4, h5, h6⟩ := (readInput_some hf r).1 h
  rw [headerFold_iff] at h1
  rw [weightFold_iff] at h3
  rw [curvilFold_iff] at h4
  rw [degmodeFold_iff] at h5
  obtain ⟨t, ht, rfl⟩ := h1
  obtain ⟨g1, g2, -⟩ := geomFold_spec _ _ _ _ h2
  obtain ⟨e1, e2, e3, e4, e5, e6, e7⟩ := finishRead_keeps h6
  rw [e1, e2, e3, e4, e5]
  refine ⟨ht, ?_, g2, h3, h4, h5⟩
  refine forall₂_of_getElem? (g1.length_eq.trans e6.symm) fun i l a' hl ha' => ?_
  obtain ⟨a, ha, n1, n2, n3, n4⟩ := e7 i a' ha'
  obtain ⟨b, hb, ⟨f, x, y, z, rest, q, k1, k2, k3, k4, k5, k6, k7⟩, -⟩ := (forall₂_getElem? g1 i).1 l hl
  have : b = a := Option.some.inj (hb.symm.trans ha)
  subst this
  exact ⟨f, x, y, z, rest, q, k1, k2, k3, n1 ▸ k4, n2 ▸ k5, n3 ▸ k6, n4 ▸ k7⟩

/-- C52: two files whose sections have the same contents are read alike, whatever the order of the sections, their
titles and count lines, and the text outside of them. -/
theorem c52_order {lines pre : List Text} {bs : List Block} {cut : List Text} (hf : FileOf lines pre bs cut)
    {lines' pre' : List Text} {bs' : List Block} {cut' : List Text} (hf' : FileOf lines' pre' bs' cut')
    (h : ∀ s, s ≠ Section.ignored → content bs s = content bs' s) : readInput lines = readInput lines' := by
  obtain ⟨rfl, h1, h2, h3⟩ := hf
  obtain ⟨rfl, k1, k2, k3⟩ := hf'
  rw [readInput_parts pre bs cut h1 h2 h3, readInput_parts pre' bs' cut' k1 k2 k3, h .header (by decide),
    h .geom (by decide), h .weight (by decide), h .curvil (by decide), h .degmode (by decide)]

/-- C52: a file with well-formed rows is read. -/
theorem c52_accepts {lines pre : List Text} {bs : List Block} {cut : List Text} (hf : FileOf lines pre bs cut)
    (hd : List Int) (ws : List (Nat × ℚ)) (h1 : List.Forall₂ IntField ((content bs .header).flatMap fieldsOf) hd)
    (h2 : 2 ≤ hd.length)
    (h3 : ∀ l ∈ content bs .geom, AtomLine l ∨ ∃ x y z vx vy vz, DummyRow l x y z ∧ RealField x vx ∧
      RealField y vy ∧ RealField z vz)
    (h4 : List.Forall₂ WeightRow (content bs .weight) ws)
    (h5 : ∀ l ∈ nonBlank (content bs .curvil), ∃ c, CurvilRow l c)
    (h6 : ∀ l ∈ nonBlank (content bs .degmode), ∃ d, NatRow l d)
    (h7 : hd[1]? = some (-1) → ∀ p ∈ ws, 1 ≤ p.1 ∧ p.1 ≤ (atomLines (content bs .geom)).length) :
    ∃ r, readInput lines = some r := by
  obtain ⟨⟨m, as, ds⟩, hg⟩ := geomFold_accepts _ [] [] [] h3
  have rows : ∀ {β : Type} (R : Text → β → Prop) (l : List Text), (∀ x ∈ l, ∃ c, R x c) →
      ∃ cs, List.Forall₂ R l cs := by
    intro β R l hl
    induction l with
    | nil => exact ⟨[], .nil⟩
    | cons a l ih =>
      obtain ⟨c, hc⟩ := hl a (by simp)
      obtain ⟨cs, hcs⟩ := ih fun x hx => hl x (by simp [hx])
      exact ⟨c :: cs, .cons hc hcs⟩
  obtain ⟨cs, hcs⟩ := rows CurvilRow _ h5
  obtain ⟨dg, hdg⟩ := rows NatRow _ h6
  have hh : (content bs .header).foldlM headerLine [] = some hd := (headerFold_iff _ _ _).2 ⟨hd, h1, rfl⟩
  have hlen : (atomLines (content bs .geom)).length = as.length := (geomFold_spec _ _ _ _ hg).1.length_eq
  have : ∃ r, finishRead ⟨hd, as, ws, cs, dg, ds⟩ = some r := by
    by_cases e : hd[1]? = some (-1)
    · obtain ⟨as', h'⟩ := setWeights_accepts ws as (fun p hp => hlen ▸ h7 e p hp)
      exact ⟨_, (finishRead_iff _ _).2 ⟨-1, e, .inl ⟨rfl, as', h', rfl⟩⟩⟩
    · refine ⟨_, (finishRead_iff _ _).2 ⟨hd[1], List.getElem?_eq_getElem (show 1 < hd.length by omega),
        .inr ⟨fun e' => e ?_, rfl⟩⟩⟩
      rw [List.getElem?_eq_getElem (by omega), e']
  obtain ⟨r, hr⟩ := this
  exact ⟨r, (readInput_some hf r).2 ⟨hd, m, as, ds, ws, cs, dg, hh, hg, (weightFold_iff _ _).2 h4,
    (curvilFold_iff _ _).2 hcs, (degmodeFold_iff _ _).2 hdg, hr⟩⟩

/-! ## C55 -/

/-- C55: weights are set exactly when the second number of the header is -1: each atom then has the last weight listed
for its number, none if there is none, and all numbers listed are those of atoms. -/
theorem c55_weights (lines : List Text) (r : Input) (h : readInput lines = some r) :
    ∃ h1, r.header[1]? = some h1 ∧ (h1 ≠ -1 → ∀ a ∈ r.atoms, a.weight = none) ∧
    (h1 = -1 → (∀ p ∈ r.weights, 1 ≤ p.1 ∧ p.1 ≤ r.atoms.length) ∧
      ∀ (i : Nat) a, r.atoms[i]? = some a → a.weight = listedWeight r.weights (i + 1)) := by
  obtain ⟨pre, bs, cut, hf⟩ := c52_decompose lines
  obtain ⟨hd, m, as, ds, ws, cs, dg, -, k2, -, -, -, k6⟩ := (readInput_some hf r).1 h
  obtain ⟨g1, -, -⟩ := geomFold_spec _ _ _ _ k2
  have none : ∀ (i : Nat) a, as[i]? = some a → a.weight = none := fun i a ha => by
    obtain ⟨_, _, _, h⟩ := (forall₂_getElem? g1 i).2 a ha
    exact h
  obtain ⟨h1, hh, ⟨e, as', hw, rfl⟩ | ⟨e, rfl⟩⟩ := (finishRead_iff _ _).1 k6
  · refine ⟨h1, hh, fun h => absurd e h, fun _ => ?_⟩
    obtain ⟨w1, w2, w3⟩ := setWeights_spec _ _ _ hw
    refine ⟨fun p hp => ⟨(w1 p hp).1, w2 ▸ (w1 p hp).2⟩, fun i a hi => ?_⟩
    obtain ⟨b, hb, -, -, -, -, e5⟩ := w3 i a hi
    rw [e5, none i b hb, Option.or_none]
    rfl
  · refine ⟨h1, hh, fun _ a ha => ?_, fun h => absurd h e⟩
    obtain ⟨i, hi⟩ := List.mem_iff_getElem?.1 ha
    exact none i a hi

/-- C55: a header with fewer than two numbers panics, and so does a weight for an atom that does not exist when
weights are to be set. -/
theorem c55_panics {lines pre : List Text} {bs : List Block} {cut : List Text} (hf : FileOf lines pre bs cut)
    (h : ((content bs .header).flatMap fieldsOf).length < 2 ∨
      (∃ t, ((content bs .header).flatMap fieldsOf)[1]? = some t ∧ IntField t (-1)) ∧
      ∃ l ∈ content bs .weight, ∃ p, WeightRow l p ∧ (p.1 = 0 ∨ (atomLines (content bs .geom)).length < p.1)) :
    readInput lines = none := by
  rw [Option.eq_none_iff_forall_ne_some]
  intro r hr
  obtain ⟨k1, k2, -, k4, -⟩ := c52_contents hf r hr
  obtain ⟨h1, hh, -, hw⟩ := c55_weights lines r hr
  rcases h with h | ⟨⟨t, ht, hm⟩, l, hl, p, hp, hbad⟩
  · have := (List.getElem?_eq_some_iff.1 hh).1
    rw [← k1.length_eq] at this
    omega
  · obtain ⟨b, hb, hb'⟩ := (forall₂_getElem? k1 1).1 t ht
    have e : h1 = -1 := by
      rw [← parseIsize_iff] at hm hb'
      rw [hm] at hb'
      rw [hb] at hh
      exact (Option.some.inj hh).symm.trans (Option.some.inj hb').symm
    obtain ⟨i, hi⟩ := List.mem_iff_getElem?.1 hl
    obtain ⟨p', hp', ⟨a', b', r', f', n', -⟩⟩ := (forall₂_getElem? k4 i).1 l hi
    obtain ⟨a, b, rest, f, n, -⟩ := hp
    rw [f] at f'
    obtain ⟨rfl, -⟩ := List.cons.inj f'
    rw [← parseUsize_iff] at n n'
    rw [n] at n'
    have := Option.some.inj n'
    have := (hw e).1 p' (List.mem_of_getElem? hp')
    have := k2.length_eq
    omega

/-! ## C54 -/

/-- What a dummy coordinate is worth: the coordinate of the atom whose line showed the text last, on the axis of the
dummy coordinate, or else the number that the text denotes. -/
theorem c54_exact {lines pre : List Text} {bs : List Block} {cut : List Text} (hf : FileOf lines pre bs cut)
    (r : Input) (h : readInput lines = some r) (before after : List Text) (l x y z : Text)
    (hg : content bs .geom = before ++ l :: after) (hl : DummyRow l x y z) :
    ∃ d vx vy vz, r.dummies[(dummyLines before).length]? = some d ∧ d.getVals r.atoms = some (vx, vy, vz) ∧
      ((∀ i, LastShows before x i → ∃ a, r.atoms[i]? = some a ∧ vx = a.x) ∧
        ((∀ i, ¬ LastShows before x i) → RealField x vx)) ∧
      ((∀ i, LastShows before y i → ∃ a, r.atoms[i]? = some a ∧ vy = a.y) ∧
        ((∀ i, ¬ LastShows before y i) → RealField y vy)) ∧
      ((∀ i, LastShows before z i → ∃ a, r.atoms[i]? = some a ∧ vz = a.z) ∧
        ((∀ i, ¬ LastShows before z i) → RealField z vz)) := by
  obtain ⟨hd, m, as, ds, ws, cs, dg, -, k2, -, -, -, k6⟩ := (readInput_some hf r).1 h
  rw [hg] at k2
  obtain ⟨m0, as0, ds0, d, p1, p2, p3, px, py, pz⟩ := geomFold_dummy _ _ _ _ _ _ hl _ _ _ k2
  obtain ⟨g1, -, g3⟩ := geomFold_spec _ _ _ _ p1
  obtain ⟨-, -, -, -, e5, e6, -⟩ := finishRead_keeps k6
  have len : ∀ t i, LastShows before t i → i < r.atoms.length := by
    rintro t i ⟨line, hline, -⟩
    have h1 := (List.getElem?_eq_some_iff.1 hline).1
    have h2 := g1.length_eq
    have h3 := p2.length_le
    have h4 : r.atoms.length = as.length := e6
    omega
  have axis : ∀ (t : Text) (v : DummyVal) (c : InAtom → ℚ), dummyVal m0 t = some v →
      ∃ q, (match v with | .value v => some v | .atom i => (r.atoms[i]?).map c) = some q ∧
        (∀ i, LastShows before t i → ∃ a, r.atoms[i]? = some a ∧ q = c a) ∧
        ((∀ i, ¬ LastShows before t i) → RealField t q) := by
    intro t v c hv
    unfold dummyVal at hv
    cases hc : coordGet m0 t with
    | some idx =>
      rw [hc] at hv
      simp only [Option.some.injEq] at hv
      subst hv
      have hs := (g3 t idx).1 hc
      have hi := len t idx hs
      refine ⟨c r.atoms[idx], by simp [hi], fun i hi' => ?_, fun hn => absurd hs (hn idx)⟩
      have : i = idx := by
        have := (g3 t i).2 hi'
        rw [hc] at this
        exact (Option.some.inj this).symm
      subst this
      exact ⟨_, List.getElem?_eq_getElem hi, rfl⟩
    | none =>
      rw [hc] at hv
      simp only [Option.map_eq_some_iff] at hv
      obtain ⟨q, hq, rfl⟩ := hv
      refine ⟨q, rfl, fun i hi' => ?_, fun _ => (parseF64_iff _ _).1 hq⟩
      rw [← g3, hc] at hi'
      simp at hi'
  obtain ⟨vx, hvx, ax⟩ := axis x d.x (·.x) px
  obtain ⟨vy, hvy, ay⟩ := axis y d.y (·.y) py
  obtain ⟨vz, hvz, az⟩ := axis z d.z (·.z) pz
  refine ⟨d, vx, vy, vz, e5 ▸ p3, ?_, ax, ay, az⟩
  unfold Dummy.getVals
  obtain ⟨dx, dy, dz⟩ := d
  cases dx <;> cases dy <;> cases dz <;> simp only at hvx hvy hvz ⊢ <;> rw [hvx, hvy, hvz] <;> rfl

/-- C54 for dummy atoms each of whose coordinates, if its text occurs on an earlier atom line, occurs on the last such
line at the same axis: the dummy atom has the coordinates written. Missing: without this condition the claim is false,
see `c54_violated`. -/
theorem c54_partial {lines pre : List Text} {bs : List Block} {cut : List Text} (hf : FileOf lines pre bs cut)
    (r : Input) (h : readInput lines = some r) (before after : List Text) (l x y z : Text)
    (hg : content bs .geom = before ++ l :: after) (hl : DummyRow l x y z)
    (hx : ∀ i k, LastShows before x i → (atomLines before)[i]? = some k → (fieldsOf k)[1]? = some x)
    (hy : ∀ i k, LastShows before y i → (atomLines before)[i]? = some k → (fieldsOf k)[2]? = some y)
    (hz : ∀ i k, LastShows before z i → (atomLines before)[i]? = some k → (fieldsOf k)[3]? = some z) :
    ∃ d vx vy vz, r.dummies[(dummyLines before).length]? = some d ∧ d.getVals r.atoms = some (vx, vy, vz) ∧
      RealField x vx ∧ RealField y vy ∧ RealField z vz := by
  obtain ⟨d, vx, vy, vz, h1, h2, ⟨x1, x2⟩, ⟨y1, y2⟩, ⟨z1, z2⟩⟩ := c54_exact hf r h before after l x y z hg hl
  obtain ⟨-, k2, -⟩ := c52_contents hf r h
  have pre : ∀ (i : Nat) k, (atomLines before)[i]? = some k → (atomLines (content bs .geom))[i]? = some k := by
    intro i k hk
    rw [hg]
    unfold atomLines at hk ⊢
    rw [List.filter_append, List.getElem?_append_left (List.getElem?_eq_some_iff.1 hk).1]
    exact hk
  refine ⟨d, vx, vy, vz, h1, h2, ?_, ?_, ?_⟩
  · by_cases hn : ∃ i, LastShows before x i
    · obtain ⟨i, hi⟩ := hn
      obtain ⟨a, ha, rfl⟩ := x1 i hi
      obtain ⟨k, hk, -⟩ := id hi
      obtain ⟨a', ha', ⟨f, x', y', z', rest, q, e, -, -, -, e5, -⟩⟩ := (forall₂_getElem? k2 i).1 k (pre i k hk)
      have e1 := hx i k hi hk
      rw [e] at e1
      simp only [List.getElem?_cons_succ, List.getElem?_cons_zero, Option.some.injEq] at e1
      rw [ha] at ha'
      rw [← e1, Option.some.inj ha']
      exact e5
    · exact x2 fun i hi => hn ⟨i, hi⟩
  · by_cases hn : ∃ i, LastShows before y i
    · obtain ⟨i, hi⟩ := hn
      obtain ⟨a, ha, rfl⟩ := y1 i hi
      obtain ⟨k, hk, -⟩ := id hi
      obtain ⟨a', ha', ⟨f, x', y', z', rest, q, e, -, -, -, -, e5, -⟩⟩ := (forall₂_getElem? k2 i).1 k (pre i k hk)
      have e1 := hy i k hi hk
      rw [e] at e1
      simp only [List.getElem?_cons_succ, List.getElem?_cons_zero, Option.some.injEq] at e1
      rw [ha] at ha'
      rw [← e1, Option.some.inj ha']
      exact e5
    · exact y2 fun i hi => hn ⟨i, hi⟩
  · by_cases hn : ∃ i, LastShows before z i
    · obtain ⟨i, hi⟩ := hn
      obtain ⟨a, ha, rfl⟩ := z1 i hi
      obtain ⟨k, hk, -⟩ := id hi
      obtain ⟨a', ha', ⟨f, x', y', z', rest, q, e, -, -, -, -, -, e5⟩⟩ := (forall₂_getElem? k2 i).1 k (pre i k hk)
      have e1 := hz i k hi hk
      rw [e] at e1
      simp only [List.getElem?_cons_succ, List.getElem?_cons_zero, Option.some.injEq] at e1
      rw [ha] at ha'
      rw [← e1, Option.some.inj ha']
      exact e5
    · exact z2 fun i hi => hn ⟨i, hi⟩

/-- A file with one atom at (0, 0, 5) and a dummy atom at (5, 0, 0). -/
def dummyFile : List Text :=
  ["# SPECTRO", "1 0", "# GEOM", "2 0", "1.00 0.0 0.0 5.0", "0.00 5.0 0.0 0.0"].map String.toList

/-- C54 is violated: the dummy atom at (5, 0, 0) is read as lying at (0, 0, 5), since the texts of its first and third
coordinates are also coordinates of an atom on other axes. -/
theorem c54_violated : ∃ r d, readInput dummyFile = some r ∧ r.dummies = [d] ∧ d.getVals r.atoms = some (0, 0, 5) ∧
    DummyRow "0.00 5.0 0.0 0.0".toList "5.0".toList "0.0".toList "0.0".toList ∧ RealField "5.0".toList 5 ∧
    ¬ RealField "5.0".toList 0 := by
  refine ⟨⟨[1, 0], [⟨1, 0, 0, 5, none⟩], [], [], [], [⟨.atom 0, .atom 0, .atom 0⟩]⟩, ⟨.atom 0, .atom 0, .atom 0⟩,
    by decide +kernel, rfl, by decide +kernel, ⟨"0.00".toList, 0, ?_, ?_, by norm_num⟩, ?_, ?_⟩
  · rw [← splitWs_fields]
    decide +kernel
  · rw [← parseF64_iff]
    decide +kernel
  · rw [← parseF64_iff]
    decide +kernel
  · rw [← parseF64_iff]
    decide +kernel

/-! ## C53 -/

theorem title_of_contains (s : Section) (line : Text) (h : contains line s.key = true)
    (h' : ∀ t : Section, t.rank < s.rank → contains line t.key = false) : Title s line := by
  refine ⟨(contains_iff _ _).1 h, fun t ht hc => ?_⟩
  rw [← contains_iff, h' t ht] at hc
  simp at hc

/-- The title line written for a section. -/
def titleOf (s : Section) : Text :=
  match s with
  | .header => "# SPECTRO #############".toList
  | .geom => "# GEOM #############".toList
  | .weight => "# WEIGHT #############".toList
  | .curvil => "# CURVIL #############".toList
  | .degmode => "# DEGMODE #############".toList
  | .ignored => "# CORIOL #############".toList

theorem titleOf_title (s : Section) : Title s (titleOf s) := by
  apply title_of_contains
  · cases s <;> decide +kernel
  · intro t ht
    cases s <;> cases t <;> first | decide +kernel | (exfalso; revert ht; decide)

theorem showFixed8_length (x : ℚ) (h : -99999 ≤ x ∧ x ≤ 999999) : (showFixed 8 x).length < 16 := by
  have := showFixed_length 8 5 (by norm_num) x (by norm_num; exact h.1) (by norm_num; exact h.2)
  omega

theorem showFixed6_length (x : ℚ) (h : -999 ≤ x ∧ x ≤ 9999) : (showFixed 6 x).length < 12 := by
  have := showFixed_length 6 3 (by norm_num) x (by norm_num; exact h.1) (by norm_num; exact h.2)
  omega

theorem printedValue_printed (p : Nat) (x : ℚ) : Printed p x (printedValue p x) :=
  ⟨printedValue_int p x, printedValue_near p x⟩

theorem realField_unique {t : Text} {a b : ℚ} (ha : RealField t a) (hb : RealField t b) : a = b := by
  rw [← parseF64_iff] at ha hb
  rw [ha] at hb
  exact Option.some.inj hb

theorem natField_unique {t : Text} {a b : ℕ} (ha : NatField t a) (hb : NatField t b) : a = b := by
  rw [← parseUsize_iff] at ha hb
  rw [ha] at hb
  exact Option.some.inj hb

theorem forall₂_unique {α β : Type} {R : α → β → Prop} (hR : ∀ a b c, R a b → R a c → b = c) {l : List α}
    {t u : List β} (h1 : List.Forall₂ R l t) (h2 : List.Forall₂ R l u) : t = u := by
  induction h1 generalizing u with
  | nil => exact (List.forall₂_nil_left_iff.1 h2).symm
  | cons h _ ih =>
    obtain ⟨b, v, hb, hv, rfl⟩ := List.forall₂_cons_left_iff.1 h2
    rw [hR _ _ _ h hb, ih hv]

theorem natRow_unique {l : Text} {a b : List Nat} (ha : NatRow l a) (hb : NatRow l b) : a = b :=
  forall₂_unique (R := NatField) (fun _ _ _ h1 h2 => natField_unique h1 h2) ha hb

theorem curvilRow_iff (l : Text) (c : Curvil) : CurvilRow l c ↔ NatRow l c.nums := by cases c <;> rfl

theorem curvilRow_unique {l : Text} {a b : Curvil} (ha : CurvilRow l a) (hb : CurvilRow l b) : a = b := by
  rw [curvilRow_iff] at ha hb
  have := natRow_unique ha hb
  cases a <;> cases b <;> simp_all [Curvil.nums]

/-- The lines written for the geometry. -/
def geomText (s : Input) (vals : List (ℚ × ℚ × ℚ)) : List Text :=
  s.atoms.map (fun a => atomLine a.num a.x a.y a.z) ++ vals.map fun v => atomLine 0 v.1 v.2.1 v.2.2

/-- The sections of a written file. -/
def writtenBlocks (s : Input) (vals : List (ℚ × ℚ × ℚ)) : List Block :=
  [⟨.header, titleOf .header, [],
      (chunks15 (s.header.length + 1) s.header).map (fun c => intsLine (c.map showInt))⟩,
    ⟨.geom, titleOf .geom, [intsLine [showNat (s.atoms.length + s.dummies.length), showNat 0]], geomText s vals⟩,
    ⟨.weight, titleOf .weight, [padLeft 5 (showNat s.weights.length)],
      s.weights.map (fun w => padLeft 5 (showNat w.1) ++ padLeft 12 (showFixed 6 w.2))⟩,
    ⟨.curvil, titleOf .curvil, [], s.curvils.map (fun c => intsLine (c.nums.map showNat)) ++
      if s.degmodes.isEmpty then [[]] else []⟩] ++
  if s.degmodes.isEmpty then []
  else [⟨.degmode, titleOf .degmode, [], (s.degmodes.map fun d => intsLine (d.map showNat)) ++ [[]]⟩]

theorem displayInput_titles (s : Input) : displayInput s = do
    let dummies ← s.dummies.mapM fun d => do
      let v ← d.getVals s.atoms
      return atomLine 0 v.1 v.2.1 v.2.2
    return [titleOf .header] ++
      (chunks15 (s.header.length + 1) s.header).map (fun c => intsLine (c.map showInt)) ++
      [titleOf .geom, intsLine [showNat (s.atoms.length + s.dummies.length), showNat 0]] ++
      s.atoms.map (fun a => atomLine a.num a.x a.y a.z) ++
      dummies ++
      [titleOf .weight, padLeft 5 (showNat s.weights.length)] ++
      s.weights.map (fun w => padLeft 5 (showNat w.1) ++ padLeft 12 (showFixed 6 w.2)) ++
      [titleOf .curvil] ++
      s.curvils.map (fun c => intsLine (c.nums.map showNat)) ++
      if s.degmodes.isEmpty then []
      else titleOf .degmode :: s.degmodes.map fun d => intsLine (d.map showNat) := rfl

theorem writeInput_blocks (s : Input) (vals : List (ℚ × ℚ × ℚ))
    (h : s.dummies.mapM (fun d => d.getVals s.atoms) = some vals) :
    writeInput s = some ((writtenBlocks s vals).flatMap Block.lines) := by
  have e : s.dummies.mapM (fun d => do
      let v ← d.getVals s.atoms
      return atomLine 0 v.1 v.2.1 v.2.2) = some (vals.map fun v => atomLine 0 v.1 v.2.1 v.2.2) := by
    rw [mapM_forall₂] at h ⊢
    rw [List.forall₂_map_right_iff]
    refine h.imp fun d v hv => ?_
    rw [hv]
    rfl
  unfold writeInput
  rw [displayInput_titles, e]
  unfold writtenBlocks geomText
  generalize titleOf .header = t1
  generalize titleOf .geom = t2
  generalize titleOf .weight = t3
  generalize titleOf .curvil = t4
  generalize titleOf .degmode = t5
  by_cases hd : s.degmodes.isEmpty
  · simp [hd, Block.lines]
  · simp [hd, Block.lines]

theorem filter_all {α : Type} (p : α → Bool) (l : List α) (h : ∀ a ∈ l, p a = true) : l.filter p = l :=
  List.filter_eq_self.2 h

theorem filter_none {α : Type} (p : α → Bool) (l : List α) (h : ∀ a ∈ l, p a = false) : l.filter p = [] :=
  List.filter_eq_nil_iff.2 fun a ha => by simp [h a ha]

theorem natsLine_spec (l : List Nat) (h : ∀ n ∈ l, n ≤ 9999) :
    NatRow (intsLine (l.map showNat)) l ∧ Plain (intsLine (l.map showNat)) ∧
    (l ≠ [] → fieldsOf (intsLine (l.map showNat)) ≠ []) := by
  obtain ⟨h1, h2⟩ := intsLine_spec (l.map showNat)
    (fun t ht => by
      obtain ⟨n, hn, rfl⟩ := List.mem_map.1 ht
      have := h n hn
      exact (showNat_field n (by omega)).2)
    (fun t ht => by
      obtain ⟨n, hn, rfl⟩ := List.mem_map.1 (List.mem_of_mem_tail ht)
      have := showNat_length n 4 (by norm_num) (by have := h n hn; norm_num; omega)
      omega)
  refine ⟨?_, h2, fun hl => by rw [h1]; simpa using hl⟩
  unfold NatRow
  rw [h1, List.forall₂_map_left_iff, List.forall₂_same]
  intro n hn
  have := h n hn
  exact (showNat_field n (by omega)).1

theorem plain_nil : Plain [] := plain_of_safe (by simp)

/-- C53 for inputs whose numbers fit into the fields: writing succeeds, and reading the text gives the same header,
curvilinear coordinates, degenerate modes, atomic numbers and numbers of weights and dummy atoms, and the coordinates
and weights as printed, with eight and six decimals. Missing: numbers that do not fit, see `c53_violated`, and the
coordinates of dummy atoms, see `c54_violated`. -/
theorem c53_partial (s : Input) (hs : Fits s) : ∃ text r, writeInput s = some text ∧ readInput text = some r ∧
    r.header = s.header ∧ r.curvils = s.curvils ∧ r.degmodes = s.degmodes ∧
    List.Forall₂ (fun a a' => a'.num = a.num ∧ Printed 8 a.x a'.x ∧ Printed 8 a.y a'.y ∧ Printed 8 a.z a'.z)
      s.atoms r.atoms ∧
    List.Forall₂ (fun w w' => w'.1 = w.1 ∧ Printed 6 w.2 w'.2) s.weights r.weights ∧
    r.dummies.length = s.dummies.length := by
  -- the values of the dummy atoms
  have hvals : ∃ vals, List.Forall₂ (fun (d : Dummy) (v : ℚ × ℚ × ℚ) => d.getVals s.atoms = some v) s.dummies vals ∧
      ∀ v ∈ vals, (-99999 ≤ v.1 ∧ v.1 ≤ 999999) ∧ (-99999 ≤ v.2.1 ∧ v.2.1 ≤ 999999) ∧
        (-99999 ≤ v.2.2 ∧ v.2.2 ≤ 999999) := by
    have := hs.dummies
    generalize s.dummies = ds at this
    induction ds with
    | nil => exact ⟨[], .nil, by simp⟩
    | cons d ds ih =>
      obtain ⟨vals, h1, h2⟩ := ih fun d hd => this d (by simp [hd])
      obtain ⟨x, y, z, hv, hr⟩ := this d (by simp)
      refine ⟨(x, y, z) :: vals, .cons hv h1, fun v hv => ?_⟩
      rcases List.mem_cons.1 hv with rfl | hv
      · exact hr
      · exact h2 v hv
  obtain ⟨vals, hv1, hv2⟩ := hvals
  have hw := writeInput_blocks s vals ((mapM_forall₂ _ _ _).2 hv1)
  -- atoms and dummy atoms
  have atomField : ∀ a ∈ s.atoms, fieldsOf (atomLine a.num a.x a.y a.z) =
      [showFixed 2 a.num, showFixed 8 a.x, showFixed 8 a.y, showFixed 8 a.z] ∧ Plain (atomLine a.num a.x a.y a.z) :=
    fun a ha => by
      obtain ⟨-, -, hx, hy, hz⟩ := hs.atoms a ha
      exact atomLine_spec _ _ _ _ (showFixed8_length _ hx) (showFixed8_length _ hy) (showFixed8_length _ hz)
  have atomOk : ∀ a ∈ s.atoms, AtomRow (atomLine a.num a.x a.y a.z)
      ⟨a.num, printedValue 8 a.x, printedValue 8 a.y, printedValue 8 a.z, none⟩ := by
    intro a ha
    obtain ⟨h1, h2, -⟩ := hs.atoms a ha
    have n1 := (showFixed_field 2 (a.num : ℚ)).1
    rw [printedValue_nat] at n1
    refine ⟨_, _, _, _, [], a.num, (atomField a ha).1, n1, by exact_mod_cast h1, ?_, (showFixed_field _ _).1,
      (showFixed_field _ _).1, (showFixed_field _ _).1⟩
    have : ⌊(a.num : ℚ)⌋ = a.num := Int.floor_natCast _
    rw [this]
    simp only [Int.toNat_natCast]
    omega
  have dummyField : ∀ v ∈ vals, fieldsOf (atomLine 0 v.1 v.2.1 v.2.2) =
      [showFixed 2 0, showFixed 8 v.1, showFixed 8 v.2.1, showFixed 8 v.2.2] ∧ Plain (atomLine 0 v.1 v.2.1 v.2.2) :=
    fun v hv => by
      obtain ⟨hx, hy, hz⟩ := hv2 v hv
      exact atomLine_spec _ _ _ _ (showFixed8_length _ hx) (showFixed8_length _ hy) (showFixed8_length _ hz)
  have dummyOk : ∀ v ∈ vals, DummyRow (atomLine 0 v.1 v.2.1 v.2.2) (showFixed 8 v.1) (showFixed 8 v.2.1)
      (showFixed 8 v.2.2) := by
    intro v hv
    have n1 := (showFixed_field 2 ((0 : ℕ) : ℚ)).1
    rw [printedValue_nat] at n1
    exact ⟨_, _, (dummyField v hv).1, by simpa using n1, by norm_num⟩
  -- integers
  have headerOk : ∀ c ∈ chunks15 (s.header.length + 1) s.header, fieldsOf (intsLine (c.map showInt)) = c.map showInt ∧
      Plain (intsLine (c.map showInt)) := by
    intro c hc
    have hn : ∀ n ∈ c, -999 ≤ n ∧ n ≤ 9999 := fun n hn => hs.header n (chunks15_mem _ _ _ hc n hn)
    refine intsLine_spec _ (fun t ht => ?_) fun t ht => ?_
    · obtain ⟨n, hn', rfl⟩ := List.mem_map.1 ht
      exact (showInt_field n (hn n hn').1 (hn n hn').2).2.1
    · obtain ⟨n, hn', rfl⟩ := List.mem_map.1 (List.mem_of_mem_tail ht)
      exact (showInt_field n (hn n hn').1 (hn n hn').2).2.2
  have weightOk : ∀ w ∈ s.weights, WeightRow (padLeft 5 (showNat w.1) ++ padLeft 12 (showFixed 6 w.2))
      (w.1, printedValue 6 w.2) ∧ Plain (padLeft 5 (showNat w.1) ++ padLeft 12 (showFixed 6 w.2)) := by
    intro w hw
    obtain ⟨h1, h2⟩ := hs.weights w hw
    obtain ⟨k1, k2⟩ := weightText_spec w.1 w.2 h1 (showFixed6_length _ h2)
    exact ⟨⟨_, _, [], k1, (showNat_field _ h1).1, (showFixed_field _ _).1⟩, k2⟩
  have curvilOk := fun c hc => natsLine_spec (Curvil.nums c) (hs.curvils c hc)
  have degOk := fun d hd => natsLine_spec d (hs.degmodes d hd).2
  have blank : ∀ l ∈ (if s.degmodes.isEmpty then [[]] else [] : List Text), l = [] := by
    intro l hl
    split at hl <;> simpa using hl
  -- the file
  have hf : FileOf ((writtenBlocks s vals).flatMap Block.lines) [] (writtenBlocks s vals) [] := by
    refine ⟨by simp, by simp, fun b hb => ?_, .inl rfl⟩
    unfold writtenBlocks at hb
    rcases List.mem_append.1 hb with hb | hb
    · simp only [List.mem_cons, List.not_mem_nil, or_false] at hb
      rcases hb with rfl | rfl | rfl | rfl
      · refine ⟨titleOf_title _, rfl, fun l hl => ?_⟩
        obtain ⟨c, hc, rfl⟩ := List.mem_map.1 hl
        exact (headerOk c hc).2
      · refine ⟨titleOf_title _, rfl, fun l hl => ?_⟩
        rcases List.mem_append.1 hl with hl | hl
        · obtain ⟨a, ha, rfl⟩ := List.mem_map.1 hl
          exact (atomField a ha).2
        · obtain ⟨v, hv, rfl⟩ := List.mem_map.1 hl
          exact (dummyField v hv).2
      · refine ⟨titleOf_title _, rfl, fun l hl => ?_⟩
        obtain ⟨w, hw, rfl⟩ := List.mem_map.1 hl
        exact (weightOk w hw).2
      · refine ⟨titleOf_title _, rfl, fun l hl => ?_⟩
        rcases List.mem_append.1 hl with hl | hl
        · obtain ⟨c, hc, rfl⟩ := List.mem_map.1 hl
          exact (curvilOk c hc).2.1
        · rw [blank l hl]
          exact plain_nil
    · split at hb
      · simp at hb
      · rw [List.mem_singleton] at hb
        subst hb
        refine ⟨titleOf_title _, rfl, fun l hl => ?_⟩
        rcases List.mem_append.1 hl with hl | hl
        · obtain ⟨d, hd, rfl⟩ := List.mem_map.1 hl
          exact (degOk d hd).2.1
        · rw [List.mem_singleton.1 hl]
          exact plain_nil
  have cHeader : content (writtenBlocks s vals) .header =
      (chunks15 (s.header.length + 1) s.header).map (fun c => intsLine (c.map showInt)) := by
    unfold content writtenBlocks
    by_cases hd : s.degmodes.isEmpty <;> simp [hd]
  have cGeom : content (writtenBlocks s vals) .geom = geomText s vals := by
    unfold content writtenBlocks
    by_cases hd : s.degmodes.isEmpty <;> simp [hd]
  have cWeight : content (writtenBlocks s vals) .weight =
      s.weights.map (fun w => padLeft 5 (showNat w.1) ++ padLeft 12 (showFixed 6 w.2)) := by
    unfold content writtenBlocks
    by_cases hd : s.degmodes.isEmpty <;> simp [hd]
  have cCurvil : nonBlank (content (writtenBlocks s vals) .curvil) =
      s.curvils.map (fun c => intsLine (c.nums.map showNat)) := by
    have : content (writtenBlocks s vals) .curvil = s.curvils.map (fun c => intsLine (c.nums.map showNat)) ++
        if s.degmodes.isEmpty then [[]] else [] := by
      unfold content writtenBlocks
      by_cases hd : s.degmodes.isEmpty <;> simp [hd]
    rw [this]
    unfold nonBlank
    rw [List.filter_append, filter_all, filter_none, List.append_nil]
    · intro l hl
      rw [blank l hl]
      rfl
    · intro l hl
      obtain ⟨c, hc, rfl⟩ := List.mem_map.1 hl
      have := (curvilOk c hc).2.2 (by cases c <;> simp [Curvil.nums])
      simpa using this
  have cDeg : nonBlank (content (writtenBlocks s vals) .degmode) =
      s.degmodes.map (fun d => intsLine (d.map showNat)) := by
    by_cases hd : s.degmodes.isEmpty
    · have : content (writtenBlocks s vals) .degmode = [] := by
        unfold content writtenBlocks
        simp [hd]
      rw [this, List.isEmpty_iff.1 hd]
      rfl
    · have : content (writtenBlocks s vals) .degmode = s.degmodes.map (fun d => intsLine (d.map showNat)) ++ [[]] := by
        unfold content writtenBlocks
        simp [hd]
      rw [this]
      unfold nonBlank
      rw [List.filter_append, filter_all, filter_none, List.append_nil]
      · intro l hl
        rw [List.mem_singleton.1 hl]
        rfl
      · intro l hl
        obtain ⟨d, hd, rfl⟩ := List.mem_map.1 hl
        have := (degOk d hd).2.2 (hs.degmodes d hd).1
        simpa using this
  have hHeader : List.Forall₂ IntField ((content (writtenBlocks s vals) .header).flatMap fieldsOf) s.header := by
    have e : (content (writtenBlocks s vals) .header).flatMap fieldsOf = s.header.map showInt := by
      rw [cHeader, List.flatMap_map]
      conv_rhs => rw [← chunks15_join (s.header.length + 1) s.header (by omega), List.map_flatMap]
      refine List.flatMap_congr fun c hc => ?_
      rw [(headerOk c hc).1]
      rfl
    rw [e, List.forall₂_map_left_iff, List.forall₂_same]
    exact fun n hn => (showInt_field n (hs.header n hn).1 (hs.header n hn).2).1
  have hAtoms : atomLines (geomText s vals) = s.atoms.map (fun a => atomLine a.num a.x a.y a.z) := by
    unfold atomLines geomText
    rw [List.filter_append, filter_all, filter_none, List.append_nil]
    · intro l hl
      obtain ⟨v, hv, rfl⟩ := List.mem_map.1 hl
      simp only [decide_eq_false_iff_not]
      exact fun ⟨a, ha⟩ => atomRow_not_dummy ha _ _ _ (dummyOk v hv)
    · intro l hl
      obtain ⟨a, ha, rfl⟩ := List.mem_map.1 hl
      simp only [decide_eq_true_eq]
      exact ⟨_, atomOk a ha⟩
  have hDummies : dummyLines (geomText s vals) = vals.map fun v => atomLine 0 v.1 v.2.1 v.2.2 := by
    unfold dummyLines geomText
    rw [List.filter_append, filter_all _ (vals.map _), filter_none, List.nil_append]
    · intro l hl
      obtain ⟨a, ha, rfl⟩ := List.mem_map.1 hl
      simp only [decide_eq_false_iff_not, not_not]
      exact ⟨_, atomOk a ha⟩
    · intro l hl
      obtain ⟨v, hv, rfl⟩ := List.mem_map.1 hl
      simp only [decide_eq_true_eq]
      exact fun ⟨a, ha⟩ => atomRow_not_dummy ha _ _ _ (dummyOk v hv)
  have hWeights : List.Forall₂ WeightRow (content (writtenBlocks s vals) .weight)
      (s.weights.map fun w => (w.1, printedValue 6 w.2)) := by
    rw [cWeight, List.forall₂_map_left_iff, List.forall₂_map_right_iff, List.forall₂_same]
    exact fun w hw => (weightOk w hw).1
  obtain ⟨r, hr⟩ := c52_accepts hf s.header _ hHeader hs.length
    (by
      rw [cGeom]
      intro l hl
      rcases List.mem_append.1 hl with hl | hl
      · obtain ⟨a, ha, rfl⟩ := List.mem_map.1 hl
        exact .inl ⟨_, atomOk a ha⟩
      · obtain ⟨v, hv, rfl⟩ := List.mem_map.1 hl
        exact .inr ⟨_, _, _, _, _, _, dummyOk v hv, (showFixed_field _ _).1, (showFixed_field _ _).1,
          (showFixed_field _ _).1⟩)
    hWeights
    (by
      rw [cCurvil]
      intro l hl
      obtain ⟨c, hc, rfl⟩ := List.mem_map.1 hl
      exact ⟨c, (curvilRow_iff _ _).2 (curvilOk c hc).1⟩)
    (by
      rw [cDeg]
      intro l hl
      obtain ⟨d, hd, rfl⟩ := List.mem_map.1 hl
      exact ⟨d, (degOk d hd).1⟩)
    (by
      rw [cGeom, hAtoms, List.length_map]
      intro h p hp
      obtain ⟨w, hw, rfl⟩ := List.mem_map.1 hp
      exact hs.listed h w hw)
  obtain ⟨k1, k2, k3, k4, k5, k6⟩ := c52_contents hf r hr
  refine ⟨_, r, hw, hr, ?_, ?_, ?_, ?_, ?_, ?_⟩
  · refine forall₂_unique (fun t a b ha hb => ?_) k1 hHeader
    rw [← parseIsize_iff] at ha hb
    rw [ha] at hb
    exact Option.some.inj hb
  · rw [cCurvil] at k5
    refine forall₂_unique (R := CurvilRow) (fun t a b h1 h2 => curvilRow_unique h1 h2) k5 ?_
    rw [List.forall₂_map_left_iff, List.forall₂_same]
    exact fun c hc => (curvilRow_iff _ _).2 (curvilOk c hc).1
  · rw [cDeg] at k6
    refine forall₂_unique (R := NatRow) (fun t a b h1 h2 => natRow_unique h1 h2) k6 ?_
    rw [List.forall₂_map_left_iff, List.forall₂_same]
    exact fun d hd => (degOk d hd).1
  · rw [cGeom, hAtoms, List.forall₂_map_left_iff] at k2
    refine forall₂_of_getElem? k2.length_eq fun i a a' ha ha' => ?_
    obtain ⟨b, hb, hrow⟩ := (forall₂_getElem? k2 i).1 a ha
    rw [ha'] at hb
    have := Option.some.inj hb
    subst this
    obtain ⟨e1, e2, e3, e4⟩ := atomRow_unique hrow (atomOk a (List.mem_of_getElem? ha))
    rw [e1, e2, e3, e4]
    exact ⟨rfl, printedValue_printed _ _, printedValue_printed _ _, printedValue_printed _ _⟩
  · have : r.weights = s.weights.map fun w => (w.1, printedValue 6 w.2) := by
      refine forall₂_unique (fun t a b ha hb => ?_) k4 hWeights
      obtain ⟨x, y, _, f, n, q⟩ := ha
      obtain ⟨x', y', _, f', n', q'⟩ := hb
      rw [f] at f'
      simp only [List.cons.injEq] at f'
      obtain ⟨rfl, rfl, -⟩ := f'
      exact Prod.ext (natField_unique n n') (realField_unique q q')
    rw [this, List.forall₂_map_right_iff, List.forall₂_same]
    exact fun w hw => ⟨rfl, printedValue_printed _ _⟩
  · rw [cGeom, hDummies] at k3
    rw [← k3.length_eq, List.length_map, hv1.length_eq]

theorem forall₂_eq {α : Type} {R : α → α → Prop} {l t : List α} (h : List.Forall₂ R l t)
    (hR : ∀ a ∈ l, ∀ b, R a b → b = a) : t = l := by
  induction h with
  | nil => rfl
  | cons h _ ih => rw [hR _ (by simp) _ h, ih fun a ha => hR a (by simp [ha])]

theorem printed_exact {p : Nat} {x x' : ℚ} (h : Printed p x x') (hx : ∃ k : ℤ, x = k / 10 ^ p) : x' = x := by
  obtain ⟨⟨k', rfl⟩, h⟩ := h
  obtain ⟨k, rfl⟩ := hx
  have hp : (0 : ℚ) < 10 ^ p := by positivity
  rw [← sub_div, abs_div, abs_of_pos hp, div_le_div_iff_of_pos_right hp] at h
  have : |k' - k| < 1 := by
    have : (|k' - k| : ℚ) < 1 := by linarith
    exact_mod_cast this
  rw [Int.abs_lt_one_iff] at this
  rw [show k' = k by omega]

/-- C53 for an input as it is read, without dummy atoms and with all numbers at printed precision: it is read back
unchanged. -/
theorem c53_exact_partial (s : Input) (hs : Fits s) (hd : s.dummies = [])
    (hx : ∀ a ∈ s.atoms, (∃ k : ℤ, a.x = k / 10 ^ 8) ∧ (∃ k : ℤ, a.y = k / 10 ^ 8) ∧ ∃ k : ℤ, a.z = k / 10 ^ 8)
    (hw : ∀ p ∈ s.weights, ∃ k : ℤ, p.2 = k / 10 ^ 6)
    (hm : ∀ (i : Nat) a, s.atoms[i]? = some a → a.weight =
      if s.header[1]? = some (-1) then listedWeight s.weights (i + 1) else none) :
    ∃ text, writeInput s = some text ∧ readInput text = some s := by
  obtain ⟨text, r, h1, h2, h3, h4, h5, h6, h7, h8⟩ := c53_partial s hs
  have ew : r.weights = s.weights := forall₂_eq h7 fun w hw' w' ⟨e1, e2⟩ =>
    Prod.ext e1 (printed_exact e2 (hw w hw'))
  have ed : r.dummies = s.dummies := by
    rw [hd] at h8 ⊢
    exact List.eq_nil_of_length_eq_zero h8
  obtain ⟨n1, c1, c2, c3⟩ := c55_weights text r h2
  rw [h3] at c1
  rw [ew] at c3
  have ea : r.atoms = s.atoms := by
    refine List.ext_getElem? fun i => ?_
    cases hi : s.atoms[i]? with
    | none =>
      rw [List.getElem?_eq_none_iff] at hi ⊢
      rw [← h6.length_eq]
      exact hi
    | some a =>
      obtain ⟨a', ha', e1, e2, e3, e4⟩ := (forall₂_getElem? h6 i).1 a hi
      rw [ha']
      have mem := hx a (List.mem_of_getElem? hi)
      have x := printed_exact e2 mem.1
      have y := printed_exact e3 mem.2.1
      have z := printed_exact e4 mem.2.2
      have w : a'.weight = a.weight := by
        rw [hm i a hi, c1]
        by_cases e : n1 = -1
        · rw [if_pos (by rw [e]), (c3 e).2 i a' ha']
        · rw [if_neg (by simpa using e), c2 e a' (List.mem_of_getElem? ha')]
      congr 1
      cases a
      cases a'
      simp only [InAtom.mk.injEq]
      exact ⟨e1, x, y, z, w⟩
  refine ⟨text, h1, ?_⟩
  rw [h2]
  congr 1
  cases s
  cases r
  simp only [Input.mk.injEq]
  exact ⟨h3, ea, ew, h4, h5, ed⟩

/-- C53 is violated: the numbers 0, 12345 and 12345 of a header are written without blanks between them and read back as
one number. -/
theorem c53_violated : ∃ (s : Input) (text : List Text) (r : Input), writeInput s = some text ∧
    readInput text = some r ∧ s.header = [1, 0, 12345, 12345] ∧ r.header = [1, 1234512345] := by
  refine ⟨⟨[1, 0, 12345, 12345], [], [], [], [], []⟩, _, ⟨[1, 1234512345], [], [], [], [], []⟩, rfl, ?_, rfl, rfl⟩
  decide +kernel

/-- C53 is violated: an empty list of degenerate modes is lost. -/
theorem c53_violated_degmode : ∃ (s : Input) (text : List Text) (r : Input), writeInput s = some text ∧
    readInput text = some r ∧ s.degmodes = [[]] ∧ r.degmodes = [] := by
  refine ⟨⟨[1, 0], [], [], [], [[]], []⟩, _, ⟨[1, 0], [], [], [], [], []⟩, rfl, ?_, rfl, rfl⟩
  decide +kernel

/-! ## Examples -/

/-- The sections of a small file. -/
def demoBlocks : List Block :=
  [⟨.header, titleOf .header, [], ["1 -1".toList, "+3".toList]⟩,
    ⟨.geom, titleOf .geom, ["2 0".toList], ["8.00 0.0 0.0 5.0e-1".toList, "0.00 0.0 1.0 0.25".toList]⟩,
    ⟨.weight, titleOf .weight, ["1".toList], ["1 18.0".toList, "1 17.5".toList]⟩,
    ⟨.curvil, titleOf .curvil, [], ["1 2".toList, [], "1 2 3".toList]⟩,
    ⟨.ignored, titleOf .ignored, [], ["anything".toList]⟩,
    ⟨.degmode, titleOf .degmode, [], ["1 2".toList]⟩]

theorem demo_ok : ∀ b ∈ demoBlocks, b.Ok := by
  have p : ∀ l : Text, (∀ c ∈ l, Safe c) → Plain l := fun l => plain_of_safe
  intro b hb
  unfold demoBlocks at hb
  simp only [List.mem_cons, List.not_mem_nil, or_false] at hb
  rcases hb with rfl | rfl | rfl | rfl | rfl | rfl <;>
    refine ⟨titleOf_title _, rfl, fun l hl => p l ?_⟩ <;> revert l <;> decide +kernel

/-- What the small file is read as. -/
def demoInput : Input :=
  ⟨[1, -1, 3], [⟨8, 0, 0, 1 / 2, some (35 / 2)⟩], [(1, 18), (1, 35 / 2)], [.bond 1 2, .bend 1 2 3], [[1, 2]],
    [⟨.atom 0, .value 1, .value (1 / 4)⟩]⟩

/-- The small file with a line before the first title. -/
def demoFile : List Text := ["a comment".toList] ++ demoBlocks.flatMap Block.lines ++ []

/-- Non-vacuity of C52: the file is made of sections, and it is read. -/
example : FileOf demoFile ["a comment".toList] demoBlocks [] ∧ readInput demoFile = some demoInput :=
  ⟨⟨rfl, fun l hl => by rw [List.mem_singleton.1 hl]; exact plain_of_safe (by decide +kernel), demo_ok, .inl rfl⟩,
    by decide +kernel⟩

/-- Non-vacuity of `c52_order`: sections in reverse order have the same contents if each occurs once. -/
example : FileOf (demoBlocks.reverse.flatMap Block.lines ++ [titleOf .geom]) [] demoBlocks.reverse [titleOf .geom] ∧
    ∀ s, s ≠ Section.ignored → content demoBlocks s = content demoBlocks.reverse s :=
  ⟨⟨rfl, by simp, fun b hb => demo_ok b (List.mem_reverse.1 hb), .inr ⟨_, .geom, rfl, .inl rfl, titleOf_title _⟩⟩,
    fun s _ => by cases s <;> rfl⟩

/-- Non-vacuity of `c52_accepts` and `c55_weights`: the hypotheses hold for the small file. -/
example : List.Forall₂ IntField ((content demoBlocks .header).flatMap fieldsOf) [1, -1, 3] ∧
    List.Forall₂ WeightRow (content demoBlocks .weight) [(1, 18), (1, 35 / 2)] ∧
    (∀ l ∈ nonBlank (content demoBlocks .curvil), ∃ c, CurvilRow l c) ∧
    listedWeight [(1, 18), (1, 35 / 2)] 1 = some (35 / 2) := by
  have hf : FileOf demoFile ["a comment".toList] demoBlocks [] :=
    ⟨rfl, fun l hl => by rw [List.mem_singleton.1 hl]; exact plain_of_safe (by decide +kernel), demo_ok, .inl rfl⟩
  have h := c52_contents hf demoInput (by decide +kernel)
  refine ⟨h.1, h.2.2.2.1, fun l hl => ?_, by decide +kernel⟩
  obtain ⟨i, hi⟩ := List.mem_iff_getElem?.1 hl
  obtain ⟨c, -, hc⟩ := (forall₂_getElem? h.2.2.2.2.1 i).1 l hi
  exact ⟨c, hc⟩

/-- Non-vacuity of `c54_partial`: the dummy atom of the small file, whose first coordinate is that of the atom on the
same axis and whose other coordinates are shown by no atom. -/
example : content demoBlocks .geom = ["8.00 0.0 0.0 5.0e-1".toList] ++ "0.00 0.0 1.0 0.25".toList :: [] ∧
    DummyRow "0.00 0.0 1.0 0.25".toList "0.0".toList "1.0".toList "0.25".toList ∧
    (∀ i k, LastShows ["8.00 0.0 0.0 5.0e-1".toList] "0.0".toList i →
      (atomLines ["8.00 0.0 0.0 5.0e-1".toList])[i]? = some k → (fieldsOf k)[1]? = some "0.0".toList) ∧
    (∀ i, ¬ LastShows ["8.00 0.0 0.0 5.0e-1".toList] "1.0".toList i) ∧
    (∀ i, ¬ LastShows ["8.00 0.0 0.0 5.0e-1".toList] "0.25".toList i) := by
  have mem : ∀ (i : Nat) k, (atomLines ["8.00 0.0 0.0 5.0e-1".toList])[i]? = some k →
      k = "8.00 0.0 0.0 5.0e-1".toList := fun i k h =>
    List.mem_singleton.1 (List.mem_filter.1 (List.mem_of_getElem? h)).1
  refine ⟨rfl, ⟨"0.00".toList, 0, ?_, ?_, by norm_num⟩, fun i k _ hk => ?_, fun i hi => ?_, fun i hi => ?_⟩
  · rw [← splitWs_fields]
    decide +kernel
  · rw [← parseF64_iff]
    decide +kernel
  · rw [mem i k hk, ← splitWs_fields]
    decide +kernel
  · obtain ⟨l, hl, hm, -⟩ := hi
    rw [mem i l hl, ← splitWs_fields] at hm
    revert hm
    decide +kernel
  · obtain ⟨l, hl, hm, -⟩ := hi
    rw [mem i l hl, ← splitWs_fields] at hm
    revert hm
    decide +kernel

/-- Non-vacuity of `c55_panics`: a header with one number. -/
example : ((content [⟨.header, titleOf .header, [], ["1".toList]⟩] .header).flatMap fieldsOf).length < 2 := by
  rw [show fieldsOf = splitWs from funext fun l => (splitWs_fields l).symm]
  decide +kernel

/-- Non-vacuity of C53: an input that fits. -/
example : Fits ⟨[1, -1, 3], [⟨8, 0, 0, 1 / 2, some (35 / 2)⟩], [(1, 18), (1, 35 / 2)], [.bond 1 2, .bend 1 2 3],
    [[1, 2]], [⟨.atom 0, .value 1, .value (1 / 3)⟩]⟩ where
  header := by decide +kernel
  length := by decide
  atoms := by decide +kernel
  weights := by decide +kernel
  listed := by decide +kernel
  curvils := by decide +kernel
  degmodes := by decide +kernel
  dummies := by
    intro d hd
    rw [List.mem_singleton] at hd
    subst hd
    exact ⟨0, 1, 1 / 3, rfl, by norm_num, by norm_num, by norm_num⟩

end Verif
