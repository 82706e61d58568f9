import Verif.Model.Quartic
import Verif.Lemmas.Loop
import Verif.Props.Alpha
import Mathlib.Tactic.Linarith
import Mathlib.Tactic.FieldSimp
import Mathlib.Tactic.Positivity
import Mathlib.Algebra.Order.BigOperators.Ring.Finset

/-! C40 (reported constants), C42, C43, C44, C45 and C47. -/

namespace Verif

/-- C47: for each of the six representations both tables map axes to axes and are inverse to each
other. -/
theorem c47_inverse : ∀ irep < 6, ∀ i < 3,
    (princCart irep).1 i < 3 ∧ (princCart irep).2 i < 3 ∧
    (princCart irep).2 ((princCart irep).1 i) = i ∧ (princCart irep).1 ((princCart irep).2 i) = i := by
  decide

/-- C47: the six representations are different, so all six permutations of the axes occur. -/
theorem c47_distinct : ∀ r < 6, ∀ s < 6, (∀ i < 3, (princCart r).1 i = (princCart s).1 i) → r = s := by
  decide

example : (princCart 0).1 0 = 2 ∧ (princCart 0).2 2 = 0 := by decide

/-! ### C44 -/

/-- The spectroscopic `τ` constants as written in the literature, with `a v i j` the derivative of the
inertia tensor component `(i, j)` along mode `v` (independent of how the components are packed). -/
noncomputable def tauSpec (nvib : Nat) (freq primat : Vec ℝ) (a : Nat → Nat → Nat → ℝ) (i j k l : Nat) : ℝ :=
  -(38333.84078 / 2) * ∑ v ∈ Finset.range nvib,
    a v i j * a v k l / (freq v ^ 2 * (primat i * primat j * primat k * primat l))

/-- C44: the computed constants are the literature ones, for the symmetric inertia derivatives stored
packed in `wila`. -/
theorem c44_value (nvib : Nat) (freq primat : Vec ℝ) (wila : Mat ℝ) (i j k l : Nat) :
    makeTau nvib freq primat wila i j k l =
      tauSpec nvib freq primat (fun v i j => wila v (pairIdx i j)) i j k l := by
  simp only [makeTau, tauSpec, sumTo_real, lit_real, TAU_CONST, sq_real, pairIdx]
  push_cast
  congr 1
  · norm_num
  · refine Finset.sum_congr rfl fun v _ => ?_
    congr 1
    ring

/-- C44: `τ` is unchanged by exchanging `i` with `j`, `k` with `l`, and the pairs. -/
theorem c44_symmetric (nvib : Nat) (freq primat : Vec ℝ) (wila : Mat ℝ) (i j k l : Nat) :
    makeTau nvib freq primat wila j i k l = makeTau nvib freq primat wila i j k l ∧
    makeTau nvib freq primat wila i j l k = makeTau nvib freq primat wila i j k l ∧
    makeTau nvib freq primat wila k l i j = makeTau nvib freq primat wila i j k l := by
  simp only [c44_value, tauSpec, pairIdx]
  refine ⟨?_, ?_, ?_⟩
  · congr 1
    refine Finset.sum_congr rfl fun v _ => ?_
    rw [max_comm j i, min_comm j i]
    congr 1
    ring
  · congr 1
    refine Finset.sum_congr rfl fun v _ => ?_
    rw [max_comm l k, min_comm l k]
    congr 1
    ring
  · congr 1
    refine Finset.sum_congr rfl fun v _ => ?_
    rw [mul_comm (wila v _) (wila v _)]
    congr 1
    ring

/-- C44: `τ(i,j,i,j)` is never positive for non-zero frequencies and positive moments, and it is
negative as soon as one derivative of the component is non-zero. -/
theorem c44_diagonal (nvib : Nat) (freq primat : Vec ℝ) (wila : Mat ℝ) (i j : Nat)
    (hf : ∀ v < nvib, freq v ≠ 0) (hi : 0 < primat i) (hj : 0 < primat j) :
    makeTau nvib freq primat wila i j i j ≤ 0 ∧
    ((∃ v < nvib, wila v (pairIdx i j) ≠ 0) → makeTau nvib freq primat wila i j i j < 0) := by
  have hnn : ∀ v ∈ Finset.range nvib, 0 ≤ wila v (pairIdx i j) * wila v (pairIdx i j) /
      (freq v ^ 2 * (primat i * primat j * primat i * primat j)) := by
    intro v hv
    have := mul_self_nonneg (wila v (pairIdx i j))
    positivity
  rw [c44_value, tauSpec]
  constructor
  · have := Finset.sum_nonneg hnn
    nlinarith
  · rintro ⟨v, hv, hne⟩
    have hpos : 0 < ∑ v ∈ Finset.range nvib, wila v (pairIdx i j) * wila v (pairIdx i j) /
        (freq v ^ 2 * (primat i * primat j * primat i * primat j)) := by
      refine Finset.sum_pos' hnn ⟨v, Finset.mem_range.2 hv, ?_⟩
      have h1 := hf v hv
      have h2 := mul_self_pos.2 hne
      positivity
    nlinarith

/-- C44: `τ'` is symmetric. -/
theorem c44_prime_symmetric (nvib : Nat) (freq primat : Vec ℝ) (wila : Mat ℝ) (i j : Nat) :
    tauPrime (makeTau nvib freq primat wila) i j = tauPrime (makeTau nvib freq primat wila) j i := by
  unfold tauPrime
  by_cases h : i = j
  · subst h; rfl
  · simp only [ne_eq, h, not_false_eq_true, if_true, Ne.symm h]
    obtain ⟨-, -, h3⟩ := c44_symmetric nvib freq primat wila i i j j
    obtain ⟨h1, -, -⟩ := c44_symmetric nvib freq primat wila i j i j
    obtain ⟨-, h2, -⟩ := c44_symmetric nvib freq primat wila j i i j
    rw [h3, ← h1, h2]

example : makeTau 1 (fun _ => 2) (fun _ => 1) (fun _ c => (c : ℝ)) 0 1 0 1 < 0 :=
  (c44_diagonal 1 _ _ _ 0 1 (by norm_num) one_pos one_pos).2 ⟨0, by norm_num, by
    show ((pairIdx 0 1 : ℕ) : ℝ) ≠ 0
    exact Nat.cast_ne_zero.2 (by decide)⟩

/-- The fields of the computed constants that depend only on the branch taken. -/
theorem quartic_fields {rotor : Rotor} {nvib : Nat} {rotcon primat freq : Vec ℝ} {wila : Mat ℝ}
    {q : Quartic ℝ} (hq : Quartic.new rotor nvib rotcon primat freq wila = some q)
    (hl : rotor.spectroLinear = false) : ∃ ic, ic < 3 ∧
      q.djw = -(makeTau nvib freq primat wila ic ic ic ic) / 4 := by
  have key : ∀ irep d x y z, quarticRep rotor = some irep →
      ∀ t400 t220 t040 t202 t022 t004 : ℝ,
      quarticAsym rotor rotcon d irep t400 t220 t040 t202 t022 t004 = some (x, y, z) → z.1 < 6 := by
    intro irep d x y z hrep t400 t220 t040 t202 t022 t004 h
    have hi : irep < 6 := by
      cases rotor <;> simp [quarticRep] at hrep <;> omega
    unfold quarticAsym at h
    split at h
    · simp only at h
      split at h
      · simp only [Option.some.injEq, Prod.mk.injEq] at h
        rw [← h.2.2]
        simp
      · simp only [Option.some.injEq, Prod.mk.injEq] at h
        rw [← h.2.2]
        simpa using hi
    · split at h
      · simp only [Option.some.injEq, Prod.mk.injEq] at h
        rw [← h.2.2]
        simpa using hi
      · cases h
  unfold Quartic.new at hq
  cases hrep : quarticRep rotor with
  | none => simp [hrep] at hq
  | some irep =>
    have hd : rotor ≠ .diatomic := by rintro rfl; simp [Rotor.spectroLinear] at hl
    simp only [hrep, hl, hd, Option.bind_eq_bind, Option.bind_some, if_false, Bool.false_eq_true] at hq
    obtain ⟨⟨x, y, z⟩, h1, h2⟩ := Option.bind_eq_some_iff.1 hq
    have hz := key _ _ _ _ _ hrep _ _ _ _ _ _ h1
    simp only [Option.pure_def, Option.some.injEq] at h2
    subst h2
    refine ⟨(princCart z.1).1 0, (c47_inverse z.1 hz 0 (by norm_num)).1, ?_⟩
    simp only [lit_real, tauPrime]
    norm_num

/-- C44: Wilson's `DJ` and the distortion constant of a linear molecule are never negative, for non-zero
frequencies and positive moments. -/
theorem c44_sign (rotor : Rotor) (nvib : Nat) (rotcon primat freq : Vec ℝ) (wila : Mat ℝ)
    (hf : ∀ v < nvib, freq v ≠ 0) (hp : ∀ i < 3, 0 < primat i) (q : Quartic ℝ)
    (hq : Quartic.new rotor nvib rotcon primat freq wila = some q) :
    (rotor.spectroLinear = false → 0 ≤ q.djw) ∧ (rotor.spectroLinear = true → 0 ≤ q.de) := by
  have hd : ∀ i < 3, makeTau nvib freq primat wila i i i i ≤ 0 := fun i hi =>
    (c44_diagonal nvib freq primat wila i i hf (hp i hi) (hp i hi)).1
  constructor
  · intro hl
    obtain ⟨ic, h1, h2⟩ := quartic_fields hq hl
    rw [h2]
    have := hd ic h1
    linarith
  · intro hl
    cases rotor <;> simp only [Rotor.spectroLinear, Bool.false_eq_true] at hl
    · have : Quartic.new .diatomic nvib rotcon primat freq wila =
          some { (Quartic.default : Quartic ℝ) with
            de := -(makeTau nvib freq primat wila 1 1 1 1 / Arith.lit 4.0) } := rfl
      rw [this] at hq
      obtain rfl := Option.some.inj hq
      simp only [lit_real]
      have := hd 1 (by norm_num)
      norm_num
      linarith
    · have : Quartic.new .linear nvib rotcon primat freq wila =
          some { (Quartic.default : Quartic ℝ) with
            de := -(makeTau nvib freq primat wila 0 0 0 0 / Arith.lit 4.0) } := rfl
      rw [this] at hq
      obtain rfl := Option.some.inj hq
      simp only [lit_real]
      have := hd 0 (by norm_num)
      norm_num
      linarith

/-- The constants are computed for every rotor except spherical tops (and `None`), where the code
panics. -/
theorem quartic_isSome {α : Type} [Arith α] (rotor : Rotor) (nvib : Nat) (rotcon primat freq : Vec α)
    (wila : Mat α) : (Quartic.new rotor nvib rotcon primat freq wila).isSome ↔
      rotor ≠ .sphericalTop ∧ rotor ≠ .none := by
  have key : ∀ d irep (t400 t220 t040 t202 t022 t004 : α), rotor = .oblateSymmTop ∨
      rotor = .prolateSymmTop ∨ rotor = .asymmTop →
      ∃ x y z w, quarticAsym rotor rotcon d irep t400 t220 t040 t202 t022 t004 = some (x, y, z, w) := by
    intro d irep t400 t220 t040 t202 t022 t004 h
    unfold quarticAsym
    rcases h with rfl | rfl | rfl
    · rw [if_pos (by decide)]
      dsimp only
      split <;> exact ⟨_, _, _, _, rfl⟩
    · rw [if_pos (by decide)]
      dsimp only
      split <;> exact ⟨_, _, _, _, rfl⟩
    · exact ⟨_, _, _, _, rfl⟩
  cases rotor <;> simp only [Quartic.new, quarticRep, Option.bind_eq_bind, Option.bind_some,
    Option.bind_none, Rotor.spectroLinear, reduceCtorEq, if_true, if_false, ne_eq, not_false_eq_true,
    and_self, not_true_eq_false, and_false, false_and, Option.isSome_none, Bool.false_eq_true, iff_true]
  · rfl
  · rfl
  all_goals
    obtain ⟨x, y, z, w, h⟩ := key _ _ _ _ _ _ _ _ (by simp)
    rw [h]
    rfl

example : ∃ q, Quartic.new .oblateSymmTop 2 (fun i => (3 - i : ℝ)) (fun _ => 1) (fun v => (v + 1 : ℝ))
    (fun _ _ => 1) = some q ∧ 0 ≤ q.djw := by
  obtain ⟨q, hq⟩ := Option.isSome_iff_exists.1 ((quartic_isSome .oblateSymmTop 2 (fun i => (3 - i : ℝ))
    (fun _ => 1) (fun v => (v + 1 : ℝ)) (fun _ _ => 1)).2 (by decide))
  exact ⟨q, hq, (c44_sign .oblateSymmTop 2 (fun i => (3 - i : ℝ)) (fun _ => 1) (fun v => (v + 1 : ℝ))
    (fun _ _ => 1) (fun v _ => by positivity) (by norm_num) q hq).1 rfl⟩

/-! ### C45 -/

/-- All constants of an asymmetric top in terms of the relabelled `τ'` over four. -/
theorem quartic_asymm {nvib : Nat} {rotcon primat freq : Vec ℝ} {wila : Mat ℝ} {q : Quartic ℝ}
    (hq : Quartic.new .asymmTop nvib rotcon primat freq wila = some q) :
    let P := tauPrime (makeTau nvib freq primat wila)
    q.sigma = (2 * rotcon 0 - rotcon 1 - rotcon 2) / (rotcon 1 - rotcon 2) ∧
    q.r6 = (P 1 1 + P 2 2 - 2 * P 1 2) / 64 ∧
    q.djn = -(3 * P 1 1 + 3 * P 2 2 + 2 * P 1 2) / 32 ∧
    q.djkn = -(P 1 0 + P 2 0) / 4 - 2 * q.djn ∧
    q.dkn = -P 0 0 / 4 - q.djkn - q.djn ∧
    q.sdjn = -(P 1 1 - P 2 2) / 16 ∧
    2 * q.r5 = (P 1 0 - P 2 0) / 8 + q.sdjn ∧
    q.delj = q.djn - 2 * q.r6 ∧ q.deljk = q.djkn + 12 * q.r6 ∧ q.delk = q.dkn - 10 * q.r6 ∧
    q.sdelj = q.sdjn ∧ q.sdelk = -(2 * q.r5) - 4 * q.sigma * q.r6 ∧
    q.dj = q.djn + q.r5 / q.sigma ∧ q.djk = q.djkn - 6 * q.r5 / q.sigma ∧
    q.dk = q.dkn + 5 * q.r5 / q.sigma ∧ q.sd1 = -q.sdjn ∧
    q.sd2 = q.r6 + q.r5 / (2 * q.sigma) ∧
    q.bza = rotcon 0 + 16 * q.r6 ∧
    q.bxa = rotcon 1 - 8 * (q.sigma + 1) * q.r6 ∧
    q.bya = rotcon 2 + 8 * (q.sigma - 1) * q.r6 := by
  obtain rfl := Option.some.inj (show some _ = some q from hq)
  simp only [lit_real]
  have e00 : ∀ P : Mat ℝ, quarticT 3 (princCart 0).1 P 0 0 = P 1 1 / 4 := fun P => by
    rw [show (4 : ℝ) = Arith.lit 4.0 by rw [lit_real]; norm_num]; rfl
  have e11 : ∀ P : Mat ℝ, quarticT 3 (princCart 0).1 P 1 1 = P 2 2 / 4 := fun P => by
    rw [show (4 : ℝ) = Arith.lit 4.0 by rw [lit_real]; norm_num]; rfl
  have e22 : ∀ P : Mat ℝ, quarticT 3 (princCart 0).1 P 2 2 = P 0 0 / 4 := fun P => by
    rw [show (4 : ℝ) = Arith.lit 4.0 by rw [lit_real]; norm_num]; rfl
  have e01 : ∀ P : Mat ℝ, quarticT 3 (princCart 0).1 P 0 1 = P 1 2 / 4 := fun P => by
    rw [show (4 : ℝ) = Arith.lit 4.0 by rw [lit_real]; norm_num]; rfl
  have e02 : ∀ P : Mat ℝ, quarticT 3 (princCart 0).1 P 0 2 = P 1 0 / 4 := fun P => by
    rw [show (4 : ℝ) = Arith.lit 4.0 by rw [lit_real]; norm_num]; rfl
  have e12 : ∀ P : Mat ℝ, quarticT 3 (princCart 0).1 P 1 2 = P 2 0 / 4 := fun P => by
    rw [show (4 : ℝ) = Arith.lit 4.0 by rw [lit_real]; norm_num]; rfl
  have hd0 : (princCart 0).2 0 = 1 := rfl
  have hd1 : (princCart 0).2 1 = 2 := rfl
  have hd2 : (princCart 0).2 2 = 0 := rfl
  have hm : (if Rotor.asymmTop.spectroLinear = true then 2 else 3) = 3 := rfl
  simp only [hm, e00, e11, e22, e01, e02, e12, hd0, hd1, hd2]
  push_cast
  norm_num only
  generalize tauPrime (makeTau nvib freq primat wila) = P
  generalize (2 * rotcon 0 - rotcon 1 - rotcon 2) / (rotcon 1 - rotcon 2) = σ
  refine ⟨?_, ?_, ?_, ?_, ?_, ?_, ?_, ?_, ?_, ?_, ?_, ?_, ?_, ?_, ?_, ?_, ?_, ?_⟩ <;> first | trivial | ring

/-- C45: both reductions give the same rotation about the unique axis of the representation (principal
axis 0): the three diagonal constants add up to `-τ'(0,0)/4`. -/
theorem c45_sums (nvib : Nat) (rotcon primat freq : Vec ℝ) (wila : Mat ℝ) (q : Quartic ℝ)
    (hq : Quartic.new .asymmTop nvib rotcon primat freq wila = some q) (_hσ : q.sigma ≠ 0) :
    q.delj + q.deljk + q.delk = -(makeTau nvib freq primat wila 0 0 0 0) / 4 ∧
    q.dj + q.djk + q.dk = -(makeTau nvib freq primat wila 0 0 0 0) / 4 := by
  obtain ⟨-, -, -, -, h5, -, -, h8, h9, h10, -, -, h13, h14, h15, -⟩ := quartic_asymm hq
  have e : tauPrime (makeTau nvib freq primat wila) 0 0 = makeTau nvib freq primat wila 0 0 0 0 := rfl
  rw [e] at h5
  constructor
  · rw [h8, h9, h10, h5]; ring
  · rw [h13, h14, h15, h5]; ring

/-- C45: the relations between the Nielsen constants and the two reductions. -/
theorem c45_relations (nvib : Nat) (rotcon primat freq : Vec ℝ) (wila : Mat ℝ) (q : Quartic ℝ)
    (hq : Quartic.new .asymmTop nvib rotcon primat freq wila = some q) (hσ : q.sigma ≠ 0) :
    q.dj = q.delj + 2 * q.r6 + q.r5 / q.sigma ∧
    q.djk = q.deljk - 12 * q.r6 - 6 * q.r5 / q.sigma ∧
    q.dk = q.delk + 10 * q.r6 + 5 * q.r5 / q.sigma ∧
    q.sd1 = -q.sdelj ∧ q.sd2 = q.r6 + q.r5 / (2 * q.sigma) ∧
    q.sdelk = -(4 * q.sigma * q.sd2) := by
  obtain ⟨-, -, -, -, -, -, -, h8, h9, h10, h11, h12, h13, h14, h15, h16, h17, -⟩ := quartic_asymm hq
  refine ⟨?_, ?_, ?_, ?_, h17, ?_⟩
  · rw [h13, h8]; ring
  · rw [h14, h9]; ring
  · rw [h15, h10]; ring
  · rw [h16, h11]
  · rw [h12, h17]; field_simp; ring

/-- All fields of a set of constants, as listed at /repo/spectro/src/quartic.rs:19-52. -/
def Quartic.fields {α : Type} (q : Quartic α) : List α :=
  [q.sigma, q.rkappa, q.delj, q.delk, q.deljk, q.sdelk, q.sdelj, q.bxa, q.bya, q.bza, q.djn, q.djkn,
   q.dkn, q.sdjn, q.r5, q.r6, q.dj, q.djk, q.dk, q.sd1, q.sd2, q.bxs, q.bys, q.bzs, q.djw, q.djkw,
   q.dkw, q.de]

/-- C45: subtraction acts on every field, and the fields determine the constants. -/
theorem c45_sub {α : Type} [Arith α] (a b : Quartic α) :
    (a.sub b).fields = List.zipWith (· - ·) a.fields b.fields ∧ (a.fields = b.fields → a = b) := by
  refine ⟨rfl, ?_⟩
  intro h
  cases a; cases b
  simpa [Quartic.fields] using h

example : ∃ q, Quartic.new .asymmTop 2 (fun i => if i = 0 then 5 else if i = 1 then 3 else (2 : ℝ))
    (fun _ => 1) (fun v => (v + 1 : ℝ)) (fun v c => (v + c : ℝ)) = some q ∧ q.sigma ≠ 0 := by
  obtain ⟨q, hq⟩ := Option.isSome_iff_exists.1 ((quartic_isSome .asymmTop 2
    (fun i => if i = 0 then 5 else if i = 1 then 3 else (2 : ℝ)) (fun _ => 1) (fun v => (v + 1 : ℝ))
    (fun v c => (v + c : ℝ))).2 (by decide))
  refine ⟨q, hq, ?_⟩
  rw [(quartic_asymm hq).1]
  norm_num

/-! ### C42 and the reported constants of C40 -/

/-- A loop that pushes zero or more elements in each iteration. -/
theorem foldlM_push {X Y : Type} (g : X → List Y) (step : List Y → X → Option (List Y)) (L : List X)
    (h : ∀ ret, ∀ x ∈ L, step ret x = some (ret ++ g x)) (ret : List Y) :
    L.foldlM step ret = some (ret ++ L.flatMap g) := by
  induction L generalizing ret with
  | nil => simp
  | cons x L ih =>
    rw [List.foldlM_cons, h ret x (by simp)]
    show L.foldlM step (ret ++ g x) = _
    rw [ih (fun r y hy => h r y (by simp [hy]))]
    simp

/-- The states among the first `nstop` that satisfy `P`, with their positions. -/
def reported (P : State → Bool) (nstop : Nat) (states : List State) : List (Nat × State) :=
  ((List.range nstop).filterMap fun n => (states[n]?).map fun st => (n, st)).filter fun p => P p.2

theorem reported_flatMap {Y : Type} (P : State → Bool) (nstop : Nat) (states : List State)
    (f : Nat × State → Y) :
    (reported P nstop states).map f = (List.range nstop).flatMap fun n =>
      match states[n]? with
      | some st => if P st then [f (n, st)] else []
      | none => [] := by
  unfold reported
  induction List.range nstop with
  | nil => rfl
  | cons n L ih =>
    rw [List.filterMap_cons, List.flatMap_cons, ← ih]
    cases h : states[n]? with
    | none => simp
    | some st =>
      simp only [Option.map_some, List.filter_cons]
      split <;> simp

/-- `rota` succeeds when third derivatives are present and there are enough states; it reports the
states of non-degenerate modes. -/
theorem rota_eq {α : Type} [Arith α] (header : List Int) (nstop : Nat) (rotcon : Vec α) (rotnst : Mat α)
    (states : List State) (q : Quartic α) (hh : 2 < header.getD 7 4) (hn : nstop ≤ states.length) :
    rota header nstop rotcon rotnst states q =
      some ((reported (fun s => match s with | .i1st _ => true | _ => false) nstop states).map fun p =>
        { state := p.2
          a := q.bza + (rotnst p.1 0 - rotcon 0)
          b := q.bxa + (rotnst p.1 1 - rotcon 1)
          c := q.bya + (rotnst p.1 2 - rotcon 2) }) := by
  unfold rota
  rw [reported_flatMap, foldlM_push (fun n => match states[n]? with
      | some st => if (match st with | .i1st _ => true | _ => false) = true then
          [({ state := st
              a := q.bza + (rotnst n 0 - rotcon 0)
              b := q.bxa + (rotnst n 1 - rotcon 1)
              c := q.bya + (rotnst n 2 - rotcon 2) } : Rot α)] else []
      | none => [])]
  · rfl
  · intro ret n hx
    rw [List.mem_range] at hx
    unfold rotaStep
    rw [if_pos hh]
    have : n < states.length := by omega
    rw [List.getElem?_eq_getElem this]
    cases states[n] <;> simp <;> exact ⟨rfl, rfl, rfl⟩

/-- C42: for an asymmetric top the reported `(a, b, c)` of each state are its averaged constants about
the axes 0, 1, 2 plus the centrifugal corrections `+16 T`, `-8(σ+1) T` and `+8(σ-1) T`, with
`σ = (2A-B-C)/(B-C)` and `T = (τ'(1,1) + τ'(2,2) - 2 τ'(1,2))/64`. -/
theorem c42_axes (header : List Int) (nvib nstop : Nat) (rotcon primat freq : Vec ℝ) (wila rotnst : Mat ℝ)
    (states : List State) (q : Quartic ℝ) (hh : 2 < header.getD 7 4) (hn : nstop ≤ states.length)
    (hq : Quartic.new .asymmTop nvib rotcon primat freq wila = some q) :
    ∃ rs, rota header nstop rotcon rotnst states q = some rs ∧
      List.Forall₂ (fun p r => r.state = p.2 ∧
        let σ := (2 * rotcon 0 - rotcon 1 - rotcon 2) / (rotcon 1 - rotcon 2)
        let τ := makeTau nvib freq primat wila
        let T := (τ 1 1 1 1 + τ 2 2 2 2 - 2 * (τ 1 1 2 2 + 2 * τ 1 2 1 2)) / 64
        r.a = rotnst p.1 0 + 16 * T ∧
        r.b = rotnst p.1 1 - 8 * (σ + 1) * T ∧
        r.c = rotnst p.1 2 + 8 * (σ - 1) * T)
      (reported (fun s => match s with | .i1st _ => true | _ => false) nstop states) rs := by
  refine ⟨_, rota_eq header nstop rotcon rotnst states q hh hn, ?_⟩
  obtain ⟨h1, h2, -, -, -, -, -, -, -, -, -, -, -, -, -, -, -, h18, h19, h20⟩ := quartic_asymm hq
  have e : q.r6 = (makeTau nvib freq primat wila 1 1 1 1 + makeTau nvib freq primat wila 2 2 2 2 -
      2 * (makeTau nvib freq primat wila 1 1 2 2 + 2 * makeTau nvib freq primat wila 1 2 1 2)) / 64 := by
    rw [h2]
    simp only [tauPrime, lit_real]
    norm_num
  rw [List.forall₂_map_right_iff, List.forall₂_same]
  intro p _
  refine ⟨rfl, ?_⟩
  simp only
  rw [h18, h19, h20, h1, e]
  refine ⟨?_, ?_, ?_⟩ <;> ring

/-- C40, the reported constants: for an asymmetric top one set of constants is reported for the ground
state and one for each fundamental, in that order, and those of a fundamental differ from the ground
state by that mode's vibration-rotation constants. -/
theorem c40_reported (header : List Int) (nvib i2vib : Nat) (rotcon freq : Vec ℝ) (al : Mat ℝ)
    (t : StateTab) (ht : newStates nvib i2vib (degModes .asymmTop nvib freq) = some t) (q : Quartic ℝ)
    (hh : 2 < header.getD 7 4) :
    ∃ R rs, alphaa nvib rotcon al (degModes .asymmTop nvib freq) t.states = some R ∧
      rota header (nvib + 1) rotcon R t.states q = some rs ∧ rs.length = nvib + 1 ∧
      (∀ r, rs[0]? = some r → r.state = .i1st (List.replicate nvib 0)) ∧
      ∀ k < nvib, ∀ r0 r, rs[0]? = some r0 → rs[k + 1]? = some r →
        r.state = .i1st ((List.replicate nvib 0).set k 1) ∧
        r.a - r0.a = al k 0 ∧ r.b - r0.b = al k 1 ∧ r.c - r0.c = al k 2 := by
  obtain ⟨R, hR, hRv⟩ := c40_averaged nvib i2vib freq t ht rotcon al
  obtain ⟨h0, h1, -⟩ := states_first ht
  have hp1 : (Mode.partition (degModes .asymmTop nvib freq)).1.length = nvib := by
    rw [partition_asym .asymmTop rfl]; simp
  rw [hp1] at h1
  have hi : ∀ n < nvib + 1, ∃ v, t.states[n]? = some (.i1st v) := by
    intro n hn
    rcases n with _ | k
    · exact ⟨_, h0⟩
    · exact ⟨_, (h1 k (by omega)).1⟩
  have hlen : nvib + 1 ≤ t.states.length := by
    obtain ⟨v, hv⟩ := hi nvib (by omega)
    obtain ⟨h, -⟩ := List.getElem?_eq_some_iff.1 hv
    omega
  have hrep : reported (fun s => match s with | .i1st _ => true | _ => false) (nvib + 1) t.states =
      (List.range (nvib + 1)).map fun n => (n, t.states.getD n (.i1st [])) := by
    have := reported_flatMap (fun s => match s with | .i1st _ => true | _ => false) (nvib + 1) t.states id
    rw [List.map_id] at this
    rw [this, List.map_eq_flatMap]
    simp only [List.flatMap_def]
    congr 1
    refine List.map_congr_left fun n hn => ?_
    obtain ⟨v, hv⟩ := hi n (List.mem_range.1 hn)
    simp [hv, List.getD_eq_getElem?_getD]
  refine ⟨R, _, hR, rota_eq header (nvib + 1) rotcon R t.states q hh hlen, ?_, ?_, ?_⟩
  · rw [hrep]; simp
  · intro r hr
    rw [hrep, List.getElem?_map, List.getElem?_map, List.getElem?_range (by omega)] at hr
    obtain rfl := Option.some.inj hr
    simp [List.getD_eq_getElem?_getD, h0]
  · intro k hk r0 r hr0 hr
    rw [hrep, List.getElem?_map, List.getElem?_map, List.getElem?_range (by omega)] at hr hr0
    obtain rfl := Option.some.inj hr
    obtain rfl := Option.some.inj hr0
    have ha := fun axis h => (hRv axis h).2 k hk
    have ha0 := ha 0 (by norm_num)
    have ha1 := ha 1 (by norm_num)
    have ha2 := ha 2 (by norm_num)
    simp only
    refine ⟨?_, ?_, ?_, ?_⟩
    · simp [List.getD_eq_getElem?_getD, (h1 k hk).1]
    · linarith
    · linarith
    · linarith

example : ∃ t, newStates 3 6 (degModes .asymmTop 3 (fun v => (v + 1 : ℝ))) = some t ∧
    ∀ q : Quartic ℝ, ∃ R rs, alphaa 3 (fun _ => 1) (fun k x => (k + x : ℝ))
        (degModes .asymmTop 3 (fun v => (v + 1 : ℝ))) t.states = some R ∧
      rota [] 4 (fun _ => 1) R t.states q = some rs ∧ rs.length = 4 := by
  have h : (newStates 3 6 (degModes .asymmTop 3 (fun v => (v + 1 : ℝ)))).isSome = true := by
    have : degModes .asymmTop 3 (fun v => (v + 1 : ℝ)) = [.i1 0, .i1 1, .i1 2] := rfl
    rw [this]; decide
  obtain ⟨t, ht⟩ := Option.isSome_iff_exists.1 h
  refine ⟨t, ht, fun q => ?_⟩
  obtain ⟨R, rs, h1, h2, h3, -⟩ := c40_reported [] 3 6 (fun _ => 1) (fun v => (v + 1 : ℝ))
    (fun k x => (k + x : ℝ)) t ht q (by decide)
  exact ⟨R, rs, h1, h2, h3⟩

/-! ### C43 -/

/-- The ground state, a fundamental of a non-degenerate mode, or a state with exactly one singly excited
degenerate mode. -/
def groundOrFund : State → Bool
  | .i1st v => v.sum ≤ 1
  | .i2st v => (v.filter fun p => p = (1, 1)).length = 1
  | _ => false

/-- `rots` succeeds when there are enough states and reports the ground state and the fundamentals. -/
theorem rots_eq {α : Type} [Arith α] (rotor : Rotor) (nstop : Nat) (rotcon : Vec α) (rotnst : Mat α)
    (states : List State) (q : Quartic α) (hn : nstop ≤ states.length) :
    rots rotor nstop rotcon rotnst states q =
      some ((reported groundOrFund nstop states).map fun p =>
        let ia := (rotsAxes rotor).1
        let ib := (rotsAxes rotor).2.1
        let vibr := vibrArr (princCart (rotsAxes rotor).2.2).1 (rotnst p.1 ia - rotcon ia)
          (rotnst p.1 ib - rotcon ib) (rotnst p.1 ib - rotcon ib)
        { state := p.2
          a := if rotor = .linear then q.bzs + vibr 1 else q.bys + vibr 0
          b := q.bxs + vibr 2
          c := if rotor = .linear then q.bys + vibr 0 else q.bzs + vibr 1 }) := by
  unfold rots
  rw [reported_flatMap, foldlM_push (fun n => match states[n]? with
      | some st => if groundOrFund st = true then
          let ia := (rotsAxes rotor).1
          let ib := (rotsAxes rotor).2.1
          let vibr := vibrArr (princCart (rotsAxes rotor).2.2).1 (rotnst n ia - rotcon ia)
            (rotnst n ib - rotcon ib) (rotnst n ib - rotcon ib)
          [({ state := st
              a := if rotor = .linear then q.bzs + vibr 1 else q.bys + vibr 0
              b := q.bxs + vibr 2
              c := if rotor = .linear then q.bys + vibr 0 else q.bzs + vibr 1 } : Rot α)] else []
      | none => [])]
  · rfl
  · intro ret n hx
    rw [List.mem_range] at hx
    unfold rotsStep
    have : n < states.length := by omega
    rw [List.getElem?_eq_getElem this]
    by_cases hr : rotor = .linear
    · cases states[n] with
      | i1st v => by_cases h : v.sum ≤ 1 <;> simp [rotsAccepts, groundOrFund, hr, h]
      | i2st v =>
        by_cases h : (v.filter fun p => p = (1, 1)).length = 1 <;>
          simp only [rotsAccepts, groundOrFund, hr, beq_eq_decide, h] <;> simp
      | i3st v => simp [groundOrFund]
      | i12st a b => simp [rotsAccepts, groundOrFund]
    · cases states[n] with
      | i1st v => by_cases h : v.sum ≤ 1 <;> simp [rotsAccepts, groundOrFund, hr, h]
      | i2st v =>
        by_cases h : (v.filter fun p => p = (1, 1)).length = 1 <;>
          simp only [rotsAccepts, groundOrFund, hr, beq_eq_decide, h] <;> simp
      | i3st v => simp [groundOrFund]
      | i12st a b => simp [rotsAccepts, groundOrFund]

/-- What the claim asks of a reported set of constants of state `n`: the averaged constant about the
unique axis 2 in `c`, and the two perpendicular equilibrium constants with the perpendicular vibrational
correction in `a` and `b`, each with its centrifugal correction (`T₀₀₄ = r6`, `T₀₂₂ = 2 r5`). -/
def UniqueAxisOk (rotcon : Vec ℝ) (rotnst : Mat ℝ) (q : Quartic ℝ) (n : Nat) (r : Rot ℝ) : Prop :=
  (∃ s t, (s = 0 ∧ t = 1 ∨ s = 1 ∧ t = 0) ∧
    r.a = rotcon s + (rotnst n 1 - rotcon 1) + (-4 * q.r6 - (2 - 1 / q.sigma) * (2 * q.r5)) ∧
    r.b = rotcon t + (rotnst n 1 - rotcon 1) + (-4 * q.r6 + (2 + 1 / q.sigma) * (2 * q.r5))) ∧
  r.c = rotcon 2 + (rotnst n 2 - rotcon 2) + (6 * q.r6 - 5 * (2 * q.r5) / (2 * q.sigma))

/-- The S-reduced constants of a symmetric top: the unique equilibrium constant is in `bzs`, the
perpendicular ones are in `bxs` and `bys`. For the prolate top they come in the order 0, 1. -/
theorem quartic_sym {rotor : Rotor} {nvib : Nat} {rotcon primat freq : Vec ℝ} {wila : Mat ℝ}
    {q : Quartic ℝ} (hr : rotor = .oblateSymmTop ∨ rotor = .prolateSymmTop)
    (hk : rotor = .prolateSymmTop → (2 * rotcon 1 - rotcon 2 - rotcon 0) / (rotcon 2 - rotcon 0) < 0)
    (hq : Quartic.new rotor nvib rotcon primat freq wila = some q) :
    ∃ s t, (s = 0 ∧ t = 1 ∨ s = 1 ∧ t = 0) ∧ (rotor = .prolateSymmTop → s = 1) ∧
    q.bys = rotcon s + (-4 * q.r6 - (2 - 1 / q.sigma) * (2 * q.r5)) ∧
    q.bxs = rotcon t + (-4 * q.r6 + (2 + 1 / q.sigma) * (2 * q.r5)) ∧
    q.bzs = rotcon 2 + (6 * q.r6 - 5 * (2 * q.r5) / (2 * q.sigma)) := by
  have hrep : ∃ irep, quarticRep rotor = some irep ∧ (irep = 5 ∨ rotor = .prolateSymmTop ∧ irep = 0) := by
    rcases hr with rfl | rfl
    · exact ⟨5, rfl, Or.inl rfl⟩
    · exact ⟨0, rfl, Or.inr ⟨rfl, rfl⟩⟩
  obtain ⟨irep, hrep, hirep⟩ := hrep
  have hl : rotor.spectroLinear = false := by rcases hr with rfl | rfl <;> rfl
  have hd : rotor ≠ .diatomic := by rcases hr with rfl | rfl <;> decide
  unfold Quartic.new at hq
  simp only [hrep, hl, hd, Option.bind_eq_bind, Option.bind_some, if_false, Bool.false_eq_true] at hq
  obtain ⟨⟨x, σ, z, w⟩, h1, h2⟩ := Option.bind_eq_some_iff.1 hq
  have hz : z = 2 ∨ rotor = .oblateSymmTop ∧ z = 5 := by
    unfold quarticAsym at h1
    rw [if_pos (by rcases hr with rfl | rfl <;> decide)] at h1
    dsimp only at h1
    split at h1
    · simp only [Option.some.injEq, Prod.mk.injEq] at h1
      exact Or.inl h1.2.2.1.symm
    · next hlt =>
      simp only [Option.some.injEq, Prod.mk.injEq] at h1
      rcases hirep with rfl | ⟨rfl, rfl⟩
      · rcases hr with rfl | rfl
        · exact Or.inr ⟨rfl, h1.2.2.1.symm⟩
        · cases hrep
      · exfalso
        apply hlt
        rw [lt_real, lit_real, lit_real]
        have := hk rfl
        have e : ∀ i, (princCart 0).2 i = (ICTOP.getD i []).getD 0 0 := fun _ => rfl
        norm_num [e, ICTOP] at this ⊢
        exact this
  simp only [Option.pure_def, Option.some.injEq] at h2
  subst h2
  simp only [lit_real]
  rcases hz with rfl | ⟨rfl, rfl⟩
  · refine ⟨1, 0, by simp, fun _ => rfl, ?_, ?_, ?_⟩
    · rw [show (princCart 2).2 1 = 1 from rfl]; push_cast; norm_num only; ring
    · rw [show (princCart 2).2 0 = 0 from rfl]; push_cast; norm_num only; ring
    · rw [show (princCart 2).2 2 = 2 from rfl]; push_cast; norm_num only; ring
  · refine ⟨0, 1, by simp, nofun, ?_, ?_, ?_⟩
    · rw [show (princCart 5).2 1 = 0 from rfl]; push_cast; norm_num only; ring
    · rw [show (princCart 5).2 0 = 1 from rfl]; push_cast; norm_num only; ring
    · rw [show (princCart 5).2 2 = 2 from rfl]; push_cast; norm_num only; ring

/-- C43 for oblate tops: every reported set of constants has the unique correction on the unique
constant and the perpendicular correction on the perpendicular ones. (An oblate top has `sigma`
infinite in `f64`; over `ℝ` it is `0` and the terms divided by it vanish in both.) Missing for the full
claim: prolate tops, where the code does something else, see `c43_prolate_violated`. -/
theorem c43_oblate_partial (nvib nstop : Nat) (rotcon primat freq : Vec ℝ) (wila rotnst : Mat ℝ)
    (states : List State) (q : Quartic ℝ) (hn : nstop ≤ states.length)
    (hq : Quartic.new .oblateSymmTop nvib rotcon primat freq wila = some q) :
    ∃ rs, rots .oblateSymmTop nstop rotcon rotnst states q = some rs ∧
      List.Forall₂ (fun p r => r.state = p.2 ∧ UniqueAxisOk rotcon rotnst q p.1 r)
        (reported groundOrFund nstop states) rs := by
  refine ⟨_, rots_eq .oblateSymmTop nstop rotcon rotnst states q hn, ?_⟩
  obtain ⟨s, t, hst, -, h1, h2, h3⟩ := quartic_sym (Or.inl rfl) nofun hq
  rw [List.forall₂_map_right_iff, List.forall₂_same]
  intro p _
  refine ⟨rfl, ⟨s, t, hst, ?_, ?_⟩, ?_⟩
  · simp [rotsAxes, vibrArr, princCart, IPTOC, Function.update, h1]; ring
  · simp [rotsAxes, vibrArr, princCart, IPTOC, Function.update, h2]; ring
  · simp [rotsAxes, vibrArr, princCart, IPTOC, h3]; ring

example : ∃ q, Quartic.new .oblateSymmTop 2 (fun i => if i = 2 then 1 else (2 : ℝ)) (fun _ => 1)
    (fun v => (v + 1 : ℝ)) (fun _ _ => 1) = some q ∧
    ∃ rs, rots .oblateSymmTop 2 (fun i => if i = 2 then 1 else (2 : ℝ)) (fun _ _ => 3)
      [.i1st [0, 0], .i2st [(1, 1), (0, 0)]] q = some rs ∧ rs.length = 2 := by
  obtain ⟨q, hq⟩ := Option.isSome_iff_exists.1 ((quartic_isSome .oblateSymmTop 2
    (fun i => if i = 2 then 1 else (2 : ℝ)) (fun _ => 1) (fun v => (v + 1 : ℝ)) (fun _ _ => 1)).2
    (by decide))
  obtain ⟨rs, h1, h2⟩ := c43_oblate_partial 2 2 _ _ _ _ (fun _ _ => 3)
    [.i1st [0, 0], .i2st [(1, 1), (0, 0)]] q le_rfl hq
  exact ⟨q, hq, rs, h1, by rw [← h2.length_eq]; rfl⟩

/-- C43 is violated for prolate tops: whatever the input, the unique correction is added to the
perpendicular constant in `a`, the perpendicular correction to the unique constant in `c`. -/
theorem c43_prolate_swapped (nvib nstop : Nat) (rotcon primat freq : Vec ℝ) (wila rotnst : Mat ℝ)
    (states : List State) (q : Quartic ℝ) (hn : nstop ≤ states.length)
    (hk : (2 * rotcon 1 - rotcon 2 - rotcon 0) / (rotcon 2 - rotcon 0) < 0)
    (hq : Quartic.new .prolateSymmTop nvib rotcon primat freq wila = some q) :
    ∃ rs, rots .prolateSymmTop nstop rotcon rotnst states q = some rs ∧
      List.Forall₂ (fun p r => r.state = p.2 ∧
        r.a = rotcon 1 + (rotnst p.1 2 - rotcon 2) + (-4 * q.r6 - (2 - 1 / q.sigma) * (2 * q.r5)) ∧
        r.b = rotcon 0 + (rotnst p.1 1 - rotcon 1) + (-4 * q.r6 + (2 + 1 / q.sigma) * (2 * q.r5)) ∧
        r.c = rotcon 2 + (rotnst p.1 1 - rotcon 1) + (6 * q.r6 - 5 * (2 * q.r5) / (2 * q.sigma)))
        (reported groundOrFund nstop states) rs := by
  refine ⟨_, rots_eq .prolateSymmTop nstop rotcon rotnst states q hn, ?_⟩
  obtain ⟨s, t, hst, hs, h1, h2, h3⟩ := quartic_sym (Or.inr rfl) (fun _ => hk) hq
  have hs := hs rfl
  have ht : t = 0 := by omega
  subst hs ht
  rw [List.forall₂_map_right_iff, List.forall₂_same]
  intro p _
  refine ⟨rfl, ?_, ?_, ?_⟩
  · simp [rotsAxes, vibrArr, princCart, IPTOC, Function.update, h1]; ring
  · simp [rotsAxes, vibrArr, princCart, IPTOC, Function.update, h2]; ring
  · simp [rotsAxes, vibrArr, princCart, IPTOC, h3]; ring

/-- C43 violated, concrete case: a prolate top with equilibrium constants 1, 1, 3 and averaged constants
2 about every axis; the set reported for the ground state does not satisfy the claim. -/
theorem c43_prolate_violated : ∃ (rotcon primat freq : Vec ℝ) (wila rotnst : Mat ℝ) (q : Quartic ℝ)
    (r : Rot ℝ), rotcon 0 = 1 ∧ rotcon 1 = 1 ∧ rotcon 2 = 3 ∧
      Quartic.new .prolateSymmTop 1 rotcon primat freq wila = some q ∧
      rots .prolateSymmTop 1 rotcon rotnst [.i1st [0]] q = some [r] ∧
      ¬ UniqueAxisOk rotcon rotnst q 0 r := by
  obtain ⟨q, hq⟩ := Option.isSome_iff_exists.1 ((quartic_isSome .prolateSymmTop 1
    (fun i => if i = 2 then 3 else (1 : ℝ)) (fun _ => 1) (fun _ => 1) (fun _ _ => 0)).2 (by decide))
  obtain ⟨rs, h1, h2⟩ := c43_prolate_swapped 1 1 _ _ _ _ (fun _ _ => 2) [.i1st [0]] q le_rfl
    (by norm_num) hq
  have hrep : reported groundOrFund 1 [.i1st [0]] = [(0, .i1st [0])] := by decide
  rw [hrep] at h2
  cases h2 with
  | cons hr hnil =>
    cases hnil
    refine ⟨_, _, _, _, fun _ _ => 2, q, _, by norm_num, by norm_num, by norm_num, hq, h1, ?_⟩
    rintro ⟨-, hc⟩
    have := hr.2.2.2
    simp only [reduceIte, OfNat.one_ne_ofNat, if_false] at hc this
    rw [this] at hc
    linarith

/-- C43 for linear molecules: the printed constant of every reported state is its averaged constant. -/
theorem c43_linear (nvib nstop : Nat) (rotcon primat freq : Vec ℝ) (wila rotnst : Mat ℝ)
    (states : List State) (q : Quartic ℝ) (hn : nstop ≤ states.length)
    (hq : Quartic.new .linear nvib rotcon primat freq wila = some q) :
    ∃ rs, rots .linear nstop rotcon rotnst states q = some rs ∧
      List.Forall₂ (fun p r => r.state = p.2 ∧ printedB rotcon r = rotnst p.1 1)
        (reported groundOrFund nstop states) rs := by
  refine ⟨_, rots_eq .linear nstop rotcon rotnst states q hn, ?_⟩
  have hb : q.bxs = 0 := by
    obtain rfl := Option.some.inj (show some _ = some q from hq)
    simp [Quartic.default, lit_real]
  rw [List.forall₂_map_right_iff, List.forall₂_same]
  intro p _
  refine ⟨rfl, ?_⟩
  simp [printedB, rotsAxes, vibrArr, princCart, IPTOC, hb]

example : ∃ q, Quartic.new .linear 4 (fun i => if i = 2 then 0 else (2 : ℝ)) (fun _ => 1)
    (fun v => (v + 1 : ℝ)) (fun _ _ => 1) = some q ∧
    ∃ rs, rots .linear 2 (fun i => if i = 2 then 0 else (2 : ℝ)) (fun _ _ => 3)
      [.i1st [0, 0, 0, 0], .i1st [1, 0, 0, 0]] q = some rs ∧ rs.length = 2 := by
  obtain ⟨q, hq⟩ := Option.isSome_iff_exists.1 ((quartic_isSome .linear 4
    (fun i => if i = 2 then 0 else (2 : ℝ)) (fun _ => 1) (fun v => (v + 1 : ℝ)) (fun _ _ => 1)).2
    (by decide))
  obtain ⟨rs, h1, h2⟩ := c43_linear 4 2 _ _ _ _ (fun _ _ => 3)
    [.i1st [0, 0, 0, 0], .i1st [1, 0, 0, 0]] q le_rfl hq
  exact ⟨q, hq, rs, h1, by rw [← h2.length_eq]; rfl⟩

end Verif
