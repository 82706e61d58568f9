import Verif.Spec.Geom
import Verif.Spec.Rotate
import Verif.Lemmas.Loop
import Verif.Props.Index
import Mathlib.Tactic.IntervalCases
import Mathlib.Tactic.LinearCombination

/-!
# C48, C49: sizes and alignment of the geometry
-/

namespace Verif

section Sizes

theorem tuples2 (n : Nat) : unorderedTuples n 2 = n * (n + 1) / 2 := by
  unfold unorderedTuples
  rw [Sym.card_sym_eq_multichoose, Fintype.card_fin, Nat.multichoose_eq, Nat.choose_two_right]
  simp [Nat.mul_comm]

theorem tuples3 (n : Nat) : unorderedTuples n 3 = n * (n + 1) * (n + 2) / 6 := by
  unfold unorderedTuples
  rw [Sym.card_sym_eq_multichoose, Fintype.card_fin, Nat.multichoose_eq,
    Nat.choose_eq_descFactorial_div_factorial]
  congr 1
  simp only [Nat.descFactorial, Nat.add_sub_cancel]
  cases n with
  | zero => simp
  | succ n =>
    have h1 : n + 1 + 3 - 1 - 2 = n + 1 := by omega
    have h2 : n + 1 + 3 - 1 - 1 = n + 2 := by omega
    have h3 : n + 1 + 3 - 1 - 0 = n + 3 := by omega
    rw [h1, h2, h3]; ring

theorem tuples4 (n : Nat) : unorderedTuples n 4 = n * (n + 1) * (n + 2) * (n + 3) / 24 := by
  unfold unorderedTuples
  rw [Sym.card_sym_eq_multichoose, Fintype.card_fin, Nat.multichoose_eq,
    Nat.choose_eq_descFactorial_div_factorial]
  congr 1
  simp only [Nat.descFactorial, Nat.add_sub_cancel]
  cases n with
  | zero => simp
  | succ n =>
    have h0 : n + 1 + 4 - 1 - 3 = n + 1 := by omega
    have h1 : n + 1 + 4 - 1 - 2 = n + 2 := by omega
    have h2 : n + 1 + 4 - 1 - 1 = n + 3 := by omega
    have h3 : n + 1 + 4 - 1 - 0 = n + 4 := by omega
    rw [h0, h1, h2, h3]; ring

/-- The sizes of an `N`-atom molecule, `N ≥ 2`: `3 N` Cartesian coordinates, `3 N - 6` vibrations (`3 N - 5` for
linear and diatomic molecules), and tables with one slot per unordered pair, triple, quadruple. -/
theorem c48_sizes (rotor : Rotor) (N : Nat) (hN : 2 ≤ N) :
    ∃ s, geomSizes rotor N = some s ∧ s.natom = N ∧ s.n3n = 3 * N ∧
      ((rotor = .linear ∨ rotor = .diatomic) → s.nvib + 5 = 3 * N) ∧
      (¬ (rotor = .linear ∨ rotor = .diatomic) → s.nvib + 6 = 3 * N) ∧
      s.i3n3n = unorderedTuples (3 * N) 3 ∧ s.i4n3n = unorderedTuples (3 * N) 4 ∧
      s.i2vib = unorderedTuples s.nvib 2 ∧ s.i3vib = unorderedTuples s.nvib 3 ∧
      s.i4vib = unorderedTuples s.nvib 4 := by
  unfold geomSizes
  dsimp only
  rw [if_neg (by omega), (c03_slots_dense _ 0).2]
  refine ⟨_, rfl, rfl, rfl, ?_, ?_, (tuples3 _).symm, (tuples4 _).symm, (tuples2 _).symm,
    (tuples3 _).symm, (tuples4 _).symm⟩
  · rintro (rfl | rfl) <;> simp [Rotor.spectroLinear] <;> omega
  · intro h
    cases rotor <;> simp_all [Rotor.spectroLinear] <;> omega

example : geomSizes .asymmTop 3 = some ⟨3, 9, 165, 495, 3, 6, 10, 15⟩ := by decide
example : geomSizes .linear 3 = some ⟨3, 9, 165, 495, 4, 10, 20, 35⟩ := by decide

/-- The packed index functions use exactly the slots below these sizes. -/
theorem c48_slots (rotor : Rotor) (N : Nat) (s : Sizes) (h : geomSizes rotor N = some s) (t : Nat) :
    (t < s.i2vib ↔ ∃ a b, a < s.nvib ∧ b < s.nvib ∧ pairIdx a b = t) ∧
    (t < s.i3vib ↔ ∃ a b c, a < s.nvib ∧ b < s.nvib ∧ c < s.nvib ∧ find3 a b c = t) ∧
    (t < s.i4vib ↔ ∃ a b c d, a < s.nvib ∧ b < s.nvib ∧ c < s.nvib ∧ d < s.nvib ∧
      find4 a b c d = t) ∧
    (t < s.i3n3n ↔ ∃ a b c, a < 3 * N ∧ b < 3 * N ∧ c < 3 * N ∧ find3 a b c = t) ∧
    (t < s.i4n3n ↔ ∃ a b c d, a < 3 * N ∧ b < 3 * N ∧ c < 3 * N ∧ d < 3 * N ∧
      find4 a b c d = t) := by
  unfold geomSizes at h
  dsimp only at h
  split at h
  · simp at h
  · rw [(c03_slots_dense _ 0).2] at h
    obtain rfl := Option.some.inj (show some _ = some s from h)
    exact ⟨(c03_slots_dense _ t).1, c01_slots_dense _ t, c02_slots_dense _ t, c01_slots_dense _ t,
      c02_slots_dense _ t⟩

/-- With fewer than two atoms the computation underflows, and only then. -/
theorem c48_underflow (rotor : Rotor) (N : Nat) : geomSizes rotor N = none ↔ N < 2 := by
  constructor
  · intro h
    by_contra hN
    obtain ⟨s, hs, _⟩ := c48_sizes rotor N (by omega)
    rw [hs] at h; simp at h
  · intro h
    unfold geomSizes
    rw [if_pos (by omega)]

example : geomSizes .diatomic 1 = none := by decide

end Sizes

section Rotation

/-- The equilibrium rotational constant of an axis is `CONST / moment`, and zero for a vanishing moment;
`rotcon · moment` is the same number for all axes with a moment above the cutoff. -/
theorem c68_rotational_constants (pr : Vec ℝ) (i : Nat) :
    (pr i ≤ 1 / 100 → makeRotcon pr i = 0) ∧
    (1 / 100 < pr i → makeRotcon pr i * pr i = ROT_CONST ∧ 0 < makeRotcon pr i) := by
  unfold makeRotcon
  constructor
  · intro h
    rw [if_neg (by rw [lt_real, lit_real]; push_cast; norm_num; linarith), lit_real]
    norm_num
  · intro h
    have hp : 0 < pr i := by linarith
    rw [if_pos (by rw [lt_real, lit_real]; push_cast; norm_num; linarith)]
    refine ⟨by field_simp, div_pos ?_ hp⟩
    unfold ROT_CONST PH AVN CL
    simp only [lit_real, pi_real]
    have := Real.pi_pos
    push_cast
    positivity

example : makeRotcon (fun _ => (0 : ℝ)) 0 = 0 := (c68_rotational_constants _ 0).1 (by norm_num)
example : makeRotcon (fun _ => (2 : ℝ)) 0 * 2 = ROT_CONST :=
  ((c68_rotational_constants (fun _ => (2 : ℝ)) 0).2 (by norm_num)).1

theorem positionAtom_spec {n : Nat} {p : Nat → Bool} {i : Nat} (h : positionAtom n p = some i) :
    i < n ∧ p i = true ∧ ∀ j, j < i → p j = false := by
  unfold positionAtom at h
  rw [List.find?_range_eq_some] at h
  simp at h
  exact ⟨h.2.1, h.1, fun j hj => by simpa using h.2.2 j hj⟩

theorem tol_ne {v : ℝ} (h : Arith.lt (GEOM_TOL : ℝ) (Arith.abs v) = true) : v ≠ 0 := by
  rw [lt_real, abs_real, GEOM_TOL, lit_real] at h
  rintro rfl
  rw [abs_zero] at h
  norm_num at h

theorem off_of_helper {natom : Nat} {pos : Nat → Nat → ℝ} {axis : Axis} {plane : Plane} {i : Nat}
    (h : iatlHelper natom pos axis plane = some i)
    (ho : ∀ o, plane.xor axis = some o → o ≠ .z) : i < natom ∧ (pos i 0 ≠ 0 ∨ pos i 1 ≠ 0) := by
  unfold iatlHelper at h
  cases hx : plane.xor axis with
  | none => rw [hx] at h; simp at h
  | some o =>
    rw [hx] at h
    obtain ⟨h1, h2, _⟩ := positionAtom_spec (show positionAtom _ _ = some i from h)
    rw [Bool.and_eq_true] at h2
    have := tol_ne h2.2
    refine ⟨h1, ?_⟩
    cases o with
    | x => exact Or.inl this
    | y => exact Or.inr this
    | z => exact absurd rfl (ho _ hx)

theorem off_of_offAxis {natom : Nat} {pos : Nat → Nat → ℝ} {i : Nat}
    (h : iatlOffAxis natom pos .z = some i) : i < natom ∧ (pos i 0 ≠ 0 ∨ pos i 1 ≠ 0) := by
  unfold iatlOffAxis at h
  obtain ⟨h1, h2, _⟩ := positionAtom_spec (show positionAtom _ _ = some i from h)
  rw [Bool.or_eq_true] at h2
  exact ⟨h1, h2.imp tol_ne tol_ne⟩

theorem xor_main {plane : Plane} (hp : plane.Proper) (o : Axis) (h : plane.xor .z = some o) : o ≠ .z := by
  unfold Plane.xor at h
  unfold Plane.Proper at hp
  split at h
  · next h1 => cases h; rw [← h1]; exact fun h' => hp h'.symm
  · split at h
    · cases h; assumption
    · simp at h

theorem xor_horizontal {plane : Plane} (ha : plane.a ≠ .z) (hb : plane.b ≠ .z) (o : Axis)
    (h : plane.xor plane.a = some o) : o ≠ .z := by
  unfold Plane.xor at h
  rw [if_pos rfl] at h
  cases h; exact hb

/-- The atom chosen for the alignment exists and is off the z axis, for every point group whose main axis
is z. -/
theorem c49_chosen_off_axis (natom : Nat) (pos : Nat → Nat → ℝ) (pg : PointGroup) (hz : pg.MainAxisZ)
    (r : AlignInfo) (h : makeIatl natom pos pg = some r) :
    r.iatl < natom ∧ (pos r.iatl 0 ≠ 0 ∨ pos r.iatl 1 ≠ 0) := by
  have key : ∀ (o : Option Nat) (f : Nat → AlignInfo) (hf : ∀ i, (f i).iatl = i),
      o.map f = some r → o = some r.iatl := by
    intro o f hf h
    cases o with
    | none => simp at h
    | some i => simp at h; rw [← h, hf]
  cases pg with
  | c2h axis =>
    obtain rfl : axis = .z := hz
    exact off_of_offAxis (key _ _ (fun _ => rfl) h)
  | c3 axis =>
    obtain rfl : axis = .z := hz
    exact off_of_offAxis (key _ _ (fun _ => rfl) h)
  | c2v axis planes =>
    obtain ⟨rfl, hp⟩ := hz
    simp only [makeIatl, Option.bind_eq_bind, Option.bind_eq_some_iff] at h
    obtain ⟨pl, hpl, h⟩ := h
    exact off_of_helper (key _ _ (fun _ => rfl) h) (xor_main (hp _ (List.mem_of_getElem? hpl)))
  | c3v axis plane =>
    obtain ⟨rfl, hp⟩ := hz
    exact off_of_helper (key _ _ (fun _ => rfl) h) (xor_main hp)
  | c5v axis plane => exact off_of_helper (key _ _ (fun _ => rfl) h) (xor_horizontal hz.1 hz.2)
  | c6h axis plane => exact off_of_helper (key _ _ (fun _ => rfl) h) (xor_horizontal hz.1 hz.2)
  | d2h axes planes =>
    obtain ⟨ha, hp⟩ := hz
    simp only [makeIatl, Option.bind_eq_bind, Option.bind_eq_some_iff] at h
    obtain ⟨ax, hax, pl, hpl, h⟩ := h
    rw [ha] at hax
    obtain rfl := Option.some.inj hax
    exact off_of_helper (key _ _ (fun _ => rfl) h) (xor_main (hp _ (List.mem_of_getElem? hpl)))
  | d3h axis plane =>
    obtain ⟨rfl, hp⟩ := hz
    exact off_of_helper (key _ _ (fun _ => rfl) h) (xor_main hp)
  | d5h axis plane =>
    obtain ⟨rfl, hp⟩ := hz
    exact off_of_helper (key _ _ (fun _ => rfl) h) (xor_main hp)
  | other => simp [makeIatl] at h

/-- ammonia-like test molecule: one atom on the axis, one in the xz plane, two others -/
noncomputable def pyramid : Nat → Nat → ℝ := fun i c =>
  if i = 0 then (if c = 2 then 1 else 0)
  else if i = 1 then (if c = 0 then -2 else 0)
  else if i = 2 then (if c = 0 then 1 else if c = 1 then 2 else 0)
  else (if c = 0 then 1 else if c = 1 then -2 else 0)

theorem pyramid_iatl : makeIatl 4 pyramid (.c3v .z ⟨.x, .z⟩) = some ⟨1, 3, some .z⟩ := by
  have h : iatlHelper 4 pyramid .z ⟨.x, .z⟩ = some 1 := by
    have hr : List.range 4 = [0, 1, 2, 3] := rfl
    simp only [iatlHelper, Plane.xor, positionAtom, hr, Plane.perp]
    simp [List.find?, Axis.idx, pyramid, Arith.lt, Arith.abs, GEOM_TOL, Arith.lit]
    norm_num
  simp only [makeIatl, h, Option.map]

example : PointGroup.MainAxisZ (.c3v .z ⟨.x, .z⟩) ∧
    makeIatl 4 pyramid (.c3v .z ⟨.x, .z⟩) = some ⟨1, 3, some .z⟩ :=
  ⟨⟨rfl, by simp [Plane.Proper]⟩, pyramid_iatl⟩

/-- The alignment turns all atoms and the axes about the z axis by one and the same angle. -/
theorem align_rotation (x y : ℝ) (h : x ≠ 0 ∨ y ≠ 0) (pos axes : Nat → Nat → ℝ) :
    ∃ θ : ℝ, x = Real.sqrt (x * x + y * y) * Real.cos θ ∧ y = Real.sqrt (x * x + y * y) * Real.sin θ ∧
      (∀ i, alignPos (egrMat x y) pos i 0 = Real.cos θ * pos i 0 + Real.sin θ * pos i 1 ∧
        alignPos (egrMat x y) pos i 1 = Real.cos θ * pos i 1 - Real.sin θ * pos i 0 ∧
        alignPos (egrMat x y) pos i 2 = pos i 2) ∧
      (∀ k, k < 3 → alignAxes (egrMat x y) axes k 0 = Real.cos θ * axes k 0 + Real.sin θ * axes k 1 ∧
        alignAxes (egrMat x y) axes k 1 = Real.cos θ * axes k 1 - Real.sin θ * axes k 0 ∧
        alignAxes (egrMat x y) axes k 2 = axes k 2) := by
  have hpos : 0 < x * x + y * y := by
    rcases h with h | h
    · have := mul_self_pos.mpr h; nlinarith [mul_self_nonneg y]
    · have := mul_self_pos.mpr h; nlinarith [mul_self_nonneg x]
  set c := Real.sqrt (x * x + y * y) with hc
  have hc0 : 0 < c := Real.sqrt_pos.mpr hpos
  have hcc : c * c = x * x + y * y := Real.mul_self_sqrt hpos.le
  let w : ℂ := ⟨x, y⟩
  have hw : w ≠ 0 := by
    intro hw
    have h1 : x = 0 := congrArg Complex.re hw
    have h2 : y = 0 := congrArg Complex.im hw
    rcases h with h | h
    · exact h h1
    · exact h h2
  have hn : ‖w‖ = c := by
    rw [Complex.norm_def, Complex.normSq_apply]
  have hcos : Real.cos w.arg = x / c := by rw [Complex.cos_arg hw, hn]
  have hsin : Real.sin w.arg = y / c := by rw [Complex.sin_arg, hn]
  refine ⟨w.arg, by rw [hcos]; field_simp, by rw [hsin]; field_simp, fun i => ?_, fun k hk => ?_⟩
  · rw [hcos, hsin]
    simp only [alignPos, egrMat, sqrt_real, ← hc, lit_real]
    norm_num
    ring
  · rw [hcos, hsin]
    simp only [alignAxes, transpose, matMul, sumTo_real, egrMat, sqrt_real, ← hc, lit_real,
      Finset.sum_range_succ, Finset.sum_range_zero]
    norm_num
    ring

/-- What a symmetric-top alignment does, for a molecule processed by `process_geom` whose chosen atom is off
the z axis. `p` are the centred coordinates before the alignment, `g` the result. -/
theorem c49_rigid_rotation (natoms : Nat) (pos : Nat → Nat → ℝ) (pr : Vec ℝ) (axes : Mat ℝ) (rotor : Rotor)
    (com : Vec ℝ) (pointGroup : (Nat → Nat → ℝ) → PointGroup) (hr : rotor.isSymTop = true)
    (p : Nat → Nat → ℝ) (hp : p = fun i c => pos i c - com c)
    (hz : (pointGroup p).MainAxisZ) (g : GeomOut ℝ)
    (h : processGeom natoms pos pr axes rotor false com pointGroup = some g) :
    -- the reference atom exists and now has y = 0 and x = its distance from the z axis, x > 0
    (g.iatom < natoms ∧ g.pos g.iatom 1 = 0 ∧ 0 < g.pos g.iatom 0 ∧
      g.pos g.iatom 0 ^ 2 = p g.iatom 0 ^ 2 + p g.iatom 1 ^ 2) ∧
    -- distances, heights and distances from the z axis are kept
    (∀ a b, dist2 (g.pos a) (g.pos b) = dist2 (p a) (p b)) ∧
    (∀ a, g.pos a 2 = p a 2) ∧
    (∀ a, g.pos a 0 ^ 2 + g.pos a 1 ^ 2 = p a 0 ^ 2 + p a 1 ^ 2) ∧
    -- it is a rotation about z by one angle
    (∃ θ, ∀ a, g.pos a 0 = Real.cos θ * p a 0 + Real.sin θ * p a 1 ∧
      g.pos a 1 = Real.cos θ * p a 1 - Real.sin θ * p a 0) ∧
    -- a point with coordinates `p a` in the old axes has coordinates `g.pos a` in the new ones
    (∀ a (v : Nat → ℝ), (∀ c, c < 3 → p a c = components axes v c) →
      ∀ c, c < 3 → g.pos a c = components g.axes v c) ∧
    -- the new axes are orthonormal if the old ones were
    ((∀ i j, i < 3 → j < 3 → components axes (fun k => axes k j) i = if i = j then 1 else 0) →
      ∀ i j, i < 3 → j < 3 → components g.axes (fun k => g.axes k j) i = if i = j then 1 else 0) := by
  have hp' : (fun i c => pos i c + (-com c)) = p := by
    rw [hp]; funext i c; ring
  unfold processGeom at h
  dsimp only at h
  have he : ∀ i c, pos i c + (-com c) = p i c := fun i c => congrFun (congrFun hp' i) c
  rw [hr] at h
  simp only [he, Bool.not_false, Bool.and_true, if_true, Option.bind_eq_bind, Option.bind_eq_some_iff] at h
  obtain ⟨info, hi, s, hs, hg⟩ := h
  obtain rfl := Option.some.inj (show some _ = some g from hg)
  obtain ⟨hlt, hoff⟩ := c49_chosen_off_axis natoms p _ hz info hi
  obtain ⟨θ, hx, hy, hrot, hax⟩ := align_rotation _ _ hoff p axes
  have hcs := Real.sin_sq_add_cos_sq θ
  have hfix : ∀ m : Mat ℝ, fixLinearAxes false m = m := fun m => by simp [fixLinearAxes]
  have hpos : 0 < p info.iatl 0 * p info.iatl 0 + p info.iatl 1 * p info.iatl 1 := by
    rcases hoff with h | h
    · have := mul_self_pos.mpr h; nlinarith [mul_self_nonneg (p info.iatl 1)]
    · have := mul_self_pos.mpr h; nlinarith [mul_self_nonneg (p info.iatl 0)]
  set c := Real.sqrt (p info.iatl 0 * p info.iatl 0 + p info.iatl 1 * p info.iatl 1) with hc
  have hc0 : 0 < c := Real.sqrt_pos.mpr hpos
  have hcc : c * c = p info.iatl 0 * p info.iatl 0 + p info.iatl 1 * p info.iatl 1 :=
    Real.mul_self_sqrt hpos.le
  dsimp only
  have hx' : alignPos (egrMat (p info.iatl 0) (p info.iatl 1)) p info.iatl 0 = c := by
    rw [(hrot _).1]
    rw [hx, hy]
    linear_combination c * hcs
  refine ⟨⟨hlt, ?_, ?_, ?_⟩, ?_, ?_, ?_, ⟨θ, fun a => ⟨(hrot a).1, (hrot a).2.1⟩⟩, ?_, ?_⟩
  · rw [(hrot _).2.1]
    rw [hx, hy]
    ring
  · rw [hx']; exact hc0
  · rw [hx']; linear_combination hcc
  · intro a b
    unfold dist2
    rw [(hrot a).1, (hrot a).2.1, (hrot a).2.2, (hrot b).1, (hrot b).2.1, (hrot b).2.2]
    linear_combination ((p a 0 - p b 0) ^ 2 + (p a 1 - p b 1) ^ 2) * hcs
  · intro a; exact (hrot a).2.2
  · intro a
    rw [(hrot a).1, (hrot a).2.1]
    linear_combination (p a 0 ^ 2 + p a 1 ^ 2) * hcs
  · intro a v hv c1 hc1
    have h0 := hv 0 (by norm_num)
    have h1 := hv 1 (by norm_num)
    have h2 := hv 2 (by norm_num)
    unfold components at *
    rw [hfix]
    interval_cases c1
    · rw [(hrot a).1, (hax 0 (by norm_num)).1, (hax 1 (by norm_num)).1, (hax 2 (by norm_num)).1, h0, h1]
      ring
    · rw [(hrot a).2.1, (hax 0 (by norm_num)).2.1, (hax 1 (by norm_num)).2.1, (hax 2 (by norm_num)).2.1,
        h0, h1]
      ring
    · rw [(hrot a).2.2, (hax 0 (by norm_num)).2.2, (hax 1 (by norm_num)).2.2, (hax 2 (by norm_num)).2.2, h2]
  · intro ho i j hi' hj'
    have o00 := ho 0 0 (by norm_num) (by norm_num)
    have o01 := ho 0 1 (by norm_num) (by norm_num)
    have o02 := ho 0 2 (by norm_num) (by norm_num)
    have o11 := ho 1 1 (by norm_num) (by norm_num)
    have o12 := ho 1 2 (by norm_num) (by norm_num)
    have o22 := ho 2 2 (by norm_num) (by norm_num)
    unfold components at *
    rw [hfix]
    norm_num at o00 o01 o02 o11 o12 o22
    obtain ⟨a00, a01, a02⟩ := hax 0 (by norm_num)
    obtain ⟨a10, a11, a12⟩ := hax 1 (by norm_num)
    obtain ⟨a20, a21, a22⟩ := hax 2 (by norm_num)
    generalize Real.cos θ = C at *
    generalize Real.sin θ = S at *
    interval_cases i <;> interval_cases j <;> simp only [a00, a01, a02, a10, a11, a12, a20, a21, a22] <;>
      norm_num
    · linear_combination C ^ 2 * o00 + 2 * C * S * o01 + S ^ 2 * o11 + hcs
    · linear_combination (C ^ 2 - S ^ 2) * o01 - C * S * o00 + C * S * o11
    · linear_combination C * o02 + S * o12
    · linear_combination (C ^ 2 - S ^ 2) * o01 - C * S * o00 + C * S * o11
    · linear_combination C ^ 2 * o11 - 2 * C * S * o01 + S ^ 2 * o00 + hcs
    · linear_combination C * o12 - S * o02
    · linear_combination C * o02 + S * o12
    · linear_combination C * o12 - S * o02
    · linear_combination o22

/-- the hypotheses are met: the pyramid, standing in its own centred coordinates -/
example : ∃ g, processGeom 4 pyramid (fun _ => 1) (fun i j => if i = j then 1 else 0) .prolateSymmTop false
    (fun _ => 0) (fun _ => .c3v .z ⟨.x, .z⟩) = some g ∧ g.iatom = 1 ∧ g.pos 1 0 = 2 := by
  have hs : geomSizes .prolateSymmTop 4 = some ⟨4, 12, 364, 1365, 6, 21, 56, 126⟩ := by decide
  have h : processGeom 4 pyramid (fun _ => 1) (fun i j => if i = j then 1 else 0) .prolateSymmTop false
    (fun _ => 0) (fun _ => .c3v .z ⟨.x, .z⟩) = some
      { rotor := .prolateSymmTop, primat := fun _ => 1, rotcon := makeRotcon fun _ => 1
        axes := fixLinearAxes false (alignAxes (egrMat (pyramid 1 0) (pyramid 1 1))
          fun i j => if i = j then 1 else 0)
        pos := alignPos (egrMat (pyramid 1 0) (pyramid 1 1)) pyramid
        iatom := 1, order := 3, axis := some .z, sizes := ⟨4, 12, 364, 1365, 6, 21, 56, 126⟩ } := by
    have he : ∀ i c, pyramid i c + (-(0 : ℝ)) = pyramid i c := fun i c => by ring
    unfold processGeom
    simp only [he, Rotor.isSymTop, Bool.not_false, Bool.and_true, if_true, pyramid_iatl, hs,
      Option.bind_eq_bind, Option.bind_some]
    rfl
  refine ⟨_, h, ?_⟩
  · refine ⟨rfl, ?_⟩
    have h4 : Real.sqrt 4 = 2 := by
      rw [show (4 : ℝ) = 2 ^ 2 by norm_num]; exact Real.sqrt_sq (by norm_num)
    simp [alignPos, egrMat, pyramid, Arith.lit, Arith.sqrt]

theorem feq_real (a b : ℝ) : (feq a b = true) ↔ a = b := by
  unfold feq
  rw [Bool.and_eq_true, le_real, le_real]
  exact ⟨fun h => le_antisymm h.1 h.2, fun h => by rw [h]; exact ⟨le_refl _, le_refl _⟩⟩

/-- The adjustment of the axes of linear molecules: orthonormal axes stay orthonormal, the third axis is never
changed, and a molecule lying along its third axis keeps its coordinates. -/
theorem c69_linear_axes (linear : Bool) (axes : Mat ℝ) (ho : Orthogonal3 axes) :
    Orthogonal3 (fixLinearAxes linear axes) ∧ (∀ i, fixLinearAxes linear axes i 2 = axes i 2) ∧
    (∀ v : Nat → ℝ, components axes v 0 = 0 → components axes v 1 = 0 →
      ∀ c, c < 3 → components (fixLinearAxes linear axes) v c = components axes v c) := by
  unfold fixLinearAxes
  split
  · next h =>
    simp only [Bool.and_eq_true, feq_real, abs_real, lit_real] at h
    obtain ⟨⟨⟨_, h0⟩, h1⟩, h2⟩ := h
    have h0 : axes 0 2 = 0 := by norm_num at h0; exact h0
    have h1 : axes 1 2 = 0 := by norm_num at h1; exact h1
    have h2 : axes 2 2 ^ 2 = 1 := by
      have : |axes 2 2| = 1 := by rw [h2]; norm_num
      rw [← sq_abs, this]; norm_num
    have row : ∀ i, i < 3 → ∀ v : Nat → ℝ, v i = ∑ k ∈ Finset.range 3, axes i k * components axes v k := by
      intro i hi v
      have r0 := ho.2 i 0 hi (by norm_num)
      have r1 := ho.2 i 1 hi (by norm_num)
      have r2 := ho.2 i 2 hi (by norm_num)
      simp only [components, Finset.sum_range_succ, Finset.sum_range_zero] at *
      have : v i = (if i = 0 then 1 else 0) * v 0 + (if i = 1 then 1 else 0) * v 1 +
          (if i = 2 then 1 else 0) * v 2 := by
        interval_cases i <;> norm_num
      rw [this, ← r0, ← r1, ← r2]
      ring
    refine ⟨⟨?_, ?_⟩, fun i => ?_, fun v hv0 hv1 c hc => ?_⟩
    · intro p q hp hq
      simp only [Finset.sum_range_succ, Finset.sum_range_zero, lit_real]
      interval_cases p <;> interval_cases q <;> norm_num [h0, h1]
      linear_combination h2
    · intro p q hp hq
      simp only [Finset.sum_range_succ, Finset.sum_range_zero, lit_real]
      interval_cases p <;> interval_cases q <;> norm_num [h0, h1]
      linear_combination h2
    · norm_num
    · have v0 := row 0 (by norm_num) v
      have v1 := row 1 (by norm_num) v
      simp only [Finset.sum_range_succ, Finset.sum_range_zero, hv0, hv1, h0, h1] at v0 v1
      norm_num at v0 v1
      interval_cases c
      · rw [hv0]; simp only [components, lit_real]; norm_num [v0, v1]
      · rw [hv1]; simp only [components, lit_real]; norm_num [v0, v1]
      · simp only [components, lit_real]; norm_num
  · exact ⟨ho, fun _ => rfl, fun _ _ _ _ _ => rfl⟩

/-- x and y exchanged, third axis reversed: the adjustment applies -/
example : Orthogonal3 (fun i j => if (i = 0 ∧ j = 1) ∨ (i = 1 ∧ j = 0) then 1
      else if i = 2 ∧ j = 2 then -1 else 0) ∧
    fixLinearAxes true (fun i j => if (i = 0 ∧ j = 1) ∨ (i = 1 ∧ j = 0) then (1 : ℝ)
      else if i = 2 ∧ j = 2 then -1 else 0) 0 0 = 1 := by
  constructor
  · constructor <;> intro p q hp hq <;> interval_cases p <;> interval_cases q <;>
      norm_num [Finset.sum_range_succ]
  · unfold fixLinearAxes
    rw [if_pos]
    · norm_num [lit_real]
    · simp only [Bool.and_eq_true, feq_real, abs_real, lit_real]
      norm_num

end Rotation

end Verif
