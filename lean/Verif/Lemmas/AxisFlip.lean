import Verif.Lemmas.Flip

/-!
# Reversing principal axes

What happens to the intermediate results of a run when some of the principal axes point the other way.
-/

namespace Verif

open Finset

/-- The sign of a component of the inertia derivatives (packed index) when the axes are reversed by `ε`. -/
def packSign (ε : Nat → ℝ) (c : Nat) : ℝ :=
  if c = 1 then ε 0 * ε 1 else if c = 3 then ε 0 * ε 2 else if c = 4 then ε 1 * ε 2 else 1

/-- The sign of a Coriolis constant about an axis. -/
def turnSign (ε : Nat → ℝ) (x : Nat) : ℝ :=
  if x = 0 then ε 1 * ε 2 else if x = 1 then ε 0 * ε 2 else if x = 2 then ε 0 * ε 1 else 1

/-- The sign of an entry of `cc`. -/
def tripleSign (ε : Nat → ℝ) (x y t : Nat) : ℝ := ε 0 * ε 1 * ε 2 * (ε x * ε y * ε t)

/-- The input of the sextic constants with some axes reversed. -/
def axisScc (ε : Nat → ℝ) (p : SccIn ℝ) : SccIn ℝ :=
  ⟨p.nvib, fun i j k l => ε i * ε j * ε k * ε l * p.tau i j k l, p.rotcon, p.freq,
    fun i x y t => tripleSign ε x y t * p.cc i x y t, p.f3, fun i s => packSign ε s * p.c i s⟩

section
variable {ε : Nat → ℝ} (hε : Signs ε)

theorem packSign_diag (x : Nat) : packSign ε (ioff (x + 2) - 1) = 1 := by
  have h : ioff (x + 2) - 1 ≠ 1 ∧ ioff (x + 2) - 1 ≠ 3 ∧ ioff (x + 2) - 1 ≠ 4 := by
    match x with
    | 0 => decide
    | 1 => decide
    | 2 => decide
    | x + 3 =>
      have : 10 ≤ ioff (x + 3 + 2) := by
        unfold ioff
        have : 4 * 5 ≤ (x + 3 + 2 - 1) * (x + 3 + 2) := Nat.mul_le_mul (by omega) (by omega)
        omega
      omega
  simp [packSign, h]

include hε

theorem packSign_signs : Signs (packSign ε) := by
  intro c
  unfold packSign
  rcases hε 0 with a | a <;> rcases hε 1 with b | b <;> rcases hε 2 with d | d <;> rw [a, b, d] <;>
    split_ifs <;> norm_num

theorem turnSign_signs : Signs (turnSign ε) := by
  intro c
  unfold turnSign
  rcases hε 0 with a | a <;> rcases hε 1 with b | b <;> rcases hε 2 with d | d <;> rw [a, b, d] <;>
    split_ifs <;> norm_num

theorem abs1 (i : Nat) (x : ℝ) : |ε i * x| = |x| := by
  rw [abs_mul, hε.abs, one_mul]

theorem packSign_pair {A : Nat → ℝ} (hA : ∀ c, 6 ≤ c → A c = 0) (i j : Nat) :
    packSign ε (ioff (max i j + 1) + min i j) * A (ioff (max i j + 1) + min i j) =
      ε i * ε j * A (ioff (max i j + 1) + min i j) := by
  by_cases h : i < 3 ∧ j < 3
  · obtain ⟨hi, hj⟩ := h
    congr 1
    have e0 := hε.sq 0
    have e1 := hε.sq 1
    have e2 := hε.sq 2
    interval_cases i <;> interval_cases j <;> norm_num [packSign, ioff] <;> first | linarith | ring
  · rw [hA, mul_zero, mul_zero]
    have hm : 3 ≤ max i j := by omega
    have : 6 ≤ ioff (max i j + 1) := by
      unfold ioff
      have : 3 * 4 ≤ (max i j + 1 - 1) * (max i j + 1) := Nat.mul_le_mul (by omega) (by omega)
      omega
    omega

theorem reststNew_axis (nvib i2vib : Nat) (z f3 : T3 ℝ) (w : Vec ℝ) :
    reststNew .asymmTop nvib i2vib (fun i j x => turnSign ε x * z i j x) f3 w =
      reststNew .asymmTop nvib i2vib z f3 w := by
  simp only [reststNew, coriolis, coriolisAsym, corTest, abs_real, abs1 (turnSign_signs hε)]

theorem xcalc_axis (nvib : Nat) (f4 : T4 ℝ) (w : Vec ℝ) (f3 z : T3 ℝ) (B : Vec ℝ) (modes : List Mode)
    (f1 : List Fermi1) (f2 : List Fermi2) :
    xcalc nvib f4 w f3 (fun i j x => turnSign ε x * z i j x) B modes f1 f2 = xcalc nvib f4 w f3 z B modes f1 f2 := by
  simp only [xcalc, xcalcMat, makeE0, xDiag, xOff, e0kkl, e0klm, sq1 (turnSign_signs hε)]

theorem makeTau_axis (nvib : Nat) (w I : Vec ℝ) {A : Mat ℝ} (hA : ∀ k c, 6 ≤ c → A k c = 0) :
    makeTau nvib w I (fun k c => packSign ε c * A k c) =
      fun i j k l => ε i * ε j * ε k * ε l * makeTau nvib w I A i j k l := by
  funext i j k l
  simp only [makeTau, sumTo_real]
  rw [mul_left_comm]
  congr 1
  rw [mul_sum]
  refine sum_congr rfl fun v _ => ?_
  rw [packSign_pair hε (hA v) i j, packSign_pair hε (hA v) k l]
  ring

theorem tauPrime_axis (T : T4 ℝ) : tauPrime (fun i j k l => ε i * ε j * ε k * ε l * T i j k l) = tauPrime T := by
  have e : ∀ i j, ε i * ε i * ε j * ε j = 1 := fun i j => by rw [hε.sq, one_mul, hε.sq]
  have e' : ∀ i j, ε i * ε j * ε i * ε j = 1 := fun i j => by
    linear_combination e i j
  funext i j
  simp only [tauPrime, e, e', one_mul]

theorem quartic_axis (rotor : Rotor) (nvib : Nat) (B w I : Vec ℝ) {A : Mat ℝ} (hA : ∀ k c, 6 ≤ c → A k c = 0) :
    Quartic.new rotor nvib B I w (fun k c => packSign ε c * A k c) = Quartic.new rotor nvib B I w A := by
  simp only [Quartic.new, makeTau_axis hε nvib w I hA, tauPrime_axis hε]

theorem alpha_axis (nvib : Nat) (B I w : Vec ℝ) (A : Mat ℝ) (z f3 : T3 ℝ) (cor : List Coriolis) :
    alpha nvib B I w (fun k c => packSign ε c * A k c) (fun i j x => turnSign ε x * z i j x) f3 cor =
      alpha nvib B I w A z f3 cor := by
  funext i x
  simp only [alpha, alphaEntry, corReg, corFull, sq1 (turnSign_signs hε), sq1 (packSign_signs hε), packSign_diag, one_mul]

omit hε in
theorem cMat_axis (ε : Nat → ℝ) (maxcor nvib : Nat) (w I : Vec ℝ) (A : Mat ℝ) :
    cMat maxcor nvib w I (fun k c => packSign ε c * A k c) = fun k c => packSign ε c * cMat maxcor nvib w I A k c := by
  unfold cMat
  generalize ((List.range nvib).flatMap fun i => (List.range maxcor).flatMap fun x =>
    (List.range (x + 1)).map fun y => (i, x, y)) = L
  have h0 : (fun _ _ => Arith.lit 0 : Mat ℝ) = fun k c => packSign ε c * (fun _ _ => Arith.lit 0 : Mat ℝ) k c := by
    funext k c
    simp [lit_real]
  conv_lhs => rw [h0]
  generalize (fun _ _ => Arith.lit 0 : Mat ℝ) = M
  induction L generalizing M with
  | nil => rfl
  | cons p L ih =>
    rw [List.foldl_cons, List.foldl_cons, ← ih]
    congr 1
    funext k c
    simp only [Mat.set]
    split
    · rename_i h
      rw [h.2]
      ring
    · rfl

omit hε in
theorem flatMap_cong {β γ : Type} {L : List β} {f g : β → List γ} (h : ∀ x ∈ L, f x = g x) :
    L.flatMap f = L.flatMap g := by
  induction L with
  | nil => rfl
  | cons a L ih =>
    rw [List.flatMap_cons, List.flatMap_cons, h a (by simp), ih fun x hx => h x (by simp [hx])]

theorem sign_rule {x y t : Nat} (hx : x ∈ List.range' 1 3) (hy : y ∈ List.range' 1 3) (ht : t ∈ List.range' 1 3) :
    packSign ε (ioff (max x y) + min x y - 1) * turnSign ε (t - 1) = tripleSign ε (y - 1) (x - 1) (t - 1) := by
  have q0 := hε.sq 0
  have q1 := hε.sq 1
  have q2 := hε.sq 2
  simp only [List.mem_range'_1] at hx hy ht
  obtain ⟨a, b⟩ := hx
  obtain ⟨a', b'⟩ := hy
  obtain ⟨a'', b''⟩ := ht
  have h0 := hε 0
  have h1 := hε 1
  have h2 := hε 2
  interval_cases x <;> interval_cases y <;> interval_cases t <;>
    simp only [packSign, turnSign, tripleSign, ioff, Nat.max_self, Nat.min_self] <;> norm_num <;>
    rcases h0 with a | a <;> rcases h1 with b | b <;> rcases h2 with d | d <;> simp [a, b, d]

theorem sign_rule1 {x y : Nat} (hx : x ∈ List.range' 1 3) (hy : y ∈ List.range' 1 3) :
    packSign ε (ioff (x + 1) - 1) * turnSign ε (y - 1) = tripleSign ε (y - 1) (x - 1) (x - 1) := by
  have e : ioff (x + 1) - 1 = ioff (max x x) + min x x - 1 := by
    simp only [List.mem_range'_1] at hx
    obtain ⟨a, b⟩ := hx
    interval_cases x <;> rfl
  rw [e, sign_rule hε hx hx hy]
  unfold tripleSign
  ring

theorem ccTensor_axis (nvib : Nat) (w B : Vec ℝ) (c : Mat ℝ) (z : T3 ℝ) :
    ccTensor nvib 3 w (fun k s => packSign ε s * c k s) (fun i j x => turnSign ε x * z i j x) B =
      fun i x y t => tripleSign ε x y t * ccTensor nvib 3 w c z B i x y t := by
  have dg : ∀ i x, x ∈ List.range' 1 3 →
      ccDiag nvib w (fun k s => packSign ε s * c k s) (fun i j x => turnSign ε x * z i j x) B i x =
      tripleSign ε (x - 1) (x - 1) (x - 1) * ccDiag nvib w c z B i x := by
    intro i x hx
    simp only [ccDiag, sumTo_real]
    rw [← mul_div_assoc, mul_sum]
    congr 1
    refine sum_congr rfl fun j _ => ?_
    linear_combination (c j (ioff (x + 1) - 1) * z j i (x - 1) * B (x - 1) * Arith.powf15 (w j) * ccFac w i j) *
      sign_rule1 hε hx hx
  have pr : ∀ i x y, x ∈ List.range' 1 3 → y ∈ List.range' 1 3 →
      ccPair nvib w (fun k s => packSign ε s * c k s) (fun i j x => turnSign ε x * z i j x) B i x y =
      tripleSign ε (y - 1) (x - 1) (x - 1) * ccPair nvib w c z B i x y := by
    intro i x y hx hy
    simp only [ccPair, sumTo_real]
    rw [← mul_div_assoc, mul_sum]
    congr 1
    refine sum_congr rfl fun j _ => ?_
    linear_combination (Arith.powf15 (w j) * c j (ioff (x + 1) - 1) * z j i (y - 1) * B (y - 1) * ccFac w i j) *
      sign_rule1 hε hx hy + (Arith.powf15 (w j) * Arith.lit 2.0 * c j (ioff (max x y) + min x y - 1) * z j i (x - 1) *
      B (x - 1) * ccFac w i j) * sign_rule hε hx hy hx
  have tr : ∀ i x y t, x ∈ List.range' 1 3 → y ∈ List.range' 1 3 → t ∈ List.range' 1 3 →
      ccTriple nvib w (fun k s => packSign ε s * c k s) (fun i j x => turnSign ε x * z i j x) B i x y t =
      tripleSign ε (t - 1) (y - 1) (x - 1) * ccTriple nvib w c z B i x y t := by
    intro i x y t hx hy ht
    simp only [ccTriple, sumTo_real]
    rw [← mul_div_assoc, mul_sum]
    congr 1
    refine sum_congr rfl fun j _ => ?_
    linear_combination
      (Arith.powf15 (w j) * c j (ioff (max y t) + min y t - 1) * z j i (x - 1) * B (x - 1) * ccFac w i j) *
        ((sign_rule hε hy ht hx).trans (show _ = tripleSign ε (t - 1) (y - 1) (x - 1) by unfold tripleSign; ring)) +
      (Arith.powf15 (w j) * c j (ioff (max x t) + min x t - 1) * z j i (y - 1) * B (y - 1) * ccFac w i j) *
        ((sign_rule hε hx ht hy).trans (show _ = tripleSign ε (t - 1) (y - 1) (x - 1) by unfold tripleSign; ring)) +
      (Arith.powf15 (w j) * c j (ioff (max x y) + min x y - 1) * z j i (t - 1) * B (t - 1) * ccFac w i j) *
        ((sign_rule hε hx hy ht).trans (show _ = tripleSign ε (t - 1) (y - 1) (x - 1) by unfold tripleSign; ring))
  have cm1 : ∀ x y, tripleSign ε x y x = tripleSign ε y x x := fun x y => by unfold tripleSign; ring
  have cm2 : ∀ x y, tripleSign ε x x y = tripleSign ε y x x := fun x y => by unfold tripleSign; ring
  have wr : ccWrites nvib 3 w (fun k s => packSign ε s * c k s) (fun i j x => turnSign ε x * z i j x) B =
      (ccWrites nvib 3 w c z B).map fun q => (q.1, tripleSign ε q.1.2.1 q.1.2.2.1 q.1.2.2.2 * q.2) := by
    simp only [ccWrites, List.map_flatMap]
    refine flatMap_cong fun i _ => flatMap_cong fun x hx => ?_
    simp only [List.map_append, List.map_cons, List.map_nil, List.map_flatMap]
    rw [dg i x hx]
    congr 1
    refine flatMap_cong fun y hy => ?_
    split
    · rfl
    · simp only [List.map_append, List.map_cons, List.map_nil, List.map_flatMap]
      rw [pr i x y hx hy, cm1 (x - 1) (y - 1), cm2 (x - 1) (y - 1)]
      congr 1
      refine flatMap_cong fun t ht => ?_
      split
      · rfl
      · rw [tr i x y t hx hy ht]
        rfl
  unfold ccTensor
  rw [wr, List.foldl_map]
  generalize ccWrites nvib 3 w c z B = L
  have h0 : (fun _ _ _ _ => Arith.lit 0 : T4 ℝ) =
      fun i x y t => tripleSign ε x y t * (fun _ _ _ _ => Arith.lit 0 : T4 ℝ) i x y t := by
    funext i x y t
    simp [lit_real]
  conv_lhs => rw [h0]
  generalize (fun _ _ _ _ => Arith.lit 0 : T4 ℝ) = M
  induction L generalizing M with
  | nil => rfl
  | cons p L ih =>
    rw [List.foldl_cons, List.foldl_cons, ← ih]
    congr 1
    funext i x y t
    simp only [T4.set]
    split
    · rename_i h
      rw [h.2.1, h.2.2.1, h.2.2.2]
    · rfl

theorem tripleSign_signs (x y t : Nat) : tripleSign ε x y t = 1 ∨ tripleSign ε x y t = -1 := by
  unfold tripleSign
  rcases hε 0 with a | a <;> rcases hε 1 with b | b <;> rcases hε 2 with d | d <;> rcases hε x with e | e <;>
    rcases hε y with f | f <;> rcases hε t with g | g <;> rw [a, b, d, e, f, g] <;> norm_num

theorem sq_tripleSign (x y t : Nat) (v : ℝ) : sq (tripleSign ε x y t * v) = sq v := by
  rcases tripleSign_signs hε x y t with a | a <;> simp [a, sq_real]

theorem sq4 (x y z t : Nat) (v : ℝ) : sq (ε x * ε y * ε z * ε t * v) = sq v := by
  rcases hε x with e | e <;> rcases hε y with f | f <;> rcases hε z with g | g <;> rcases hε t with h | h <;>
    simp [e, f, g, h, sq_real]

omit hε in
theorem foldl_cong {β γ : Type} {L : List β} {f g : γ → β → γ} (h : ∀ s x, f s x = g s x) (a : γ) :
    L.foldl f a = L.foldl g a := by
  have : f = g := funext fun s => funext fun x => h s x
  rw [this]

theorem sccDiag_reverse (p : SccIn ℝ) (maxcor : Nat) (lin : Bool) (x : Nat) :
    sccDiag (axisScc ε p) maxcor lin x = sccDiag p maxcor lin x := by
  have e : packSign ε (ioff (x + 1 + 1) - 1) = 1 := packSign_diag x
  simp only [sccDiag, axisScc, sq_tripleSign hε, sq4 hε, e, one_mul]

theorem tripleSign_pair (x y z : Nat) (u v : ℝ) :
    tripleSign ε x x x * u * (tripleSign ε y y x * v) = u * v ∧ tripleSign ε y y x * u * (tripleSign ε z z x * v) = u * v := by
  unfold tripleSign
  constructor <;>
  rcases hε 0 with a | a <;> rcases hε 1 with b | b <;> rcases hε 2 with d | d <;> rcases hε x with e | e <;>
    rcases hε y with f | f <;> rcases hε z with g | g <;> rw [a, b, d, e, f] <;> (try rw [g]) <;> ring

theorem sccPair_axis (p : SccIn ℝ) (x y : Nat) : sccPair (axisScc ε p) x y = sccPair p x y := by
  have e : packSign ε (ioff (x + 1 + 1) - 1) = 1 := packSign_diag x
  have e' : packSign ε (ioff (y + 1 + 1) - 1) = 1 := packSign_diag y
  have u : ∀ a b : ℝ, Arith.lit 4.0 * (packSign ε (ioff (max (x + 1) (y + 1)) + min (x + 1) (y + 1) - 1) * a) *
      (packSign ε (ioff (max (x + 1) (y + 1)) + min (x + 1) (y + 1) - 1) * b) = Arith.lit 4.0 * a * b := by
    intro a b
    linear_combination (Arith.lit 4.0 * a * b) * (packSign_signs hε).sq (ioff (max (x + 1) (y + 1)) + min (x + 1) (y + 1) - 1)
  have cc : ∀ i, Arith.lit 2.0 * (tripleSign ε x x x * p.cc i x x x) * (tripleSign ε y y x * p.cc i y y x) =
      Arith.lit 2.0 * p.cc i x x x * p.cc i y y x := by
    intro i
    linear_combination Arith.lit 2.0 * (tripleSign_pair hε x y x (p.cc i x x x) (p.cc i y y x)).1
  simp only [sccPair, axisScc, sq_tripleSign hε, e, e', one_mul, u, cc]
  refine congrArg₂ (· + ·) (congrArg₂ (· + ·) (congrArg₂ (· + ·) (congrArg₂ (· + ·) (congrArg₂ (· - ·)
    (congrArg (· * _) ?_) rfl) rfl) ?_) ?_) ?_
  · congr 1
    funext z
    rcases hε x with a | a <;> rcases hε y with b | b <;> rcases hε z with d | d <;>
      simp only [a, b, d, sq_real] <;> ring
  · congr 1
    rcases hε x with a | a <;> rcases hε y with b | b <;> simp only [a, b] <;> ring
  · refine foldl_cong (fun v z => ?_) _
    congr 1
    congr 1
    rcases hε x with a | a <;> rcases hε y with b | b <;> rcases hε z with d | d <;> simp only [a, b, d] <;> ring
  · refine foldl_cong (fun v z => ?_) _
    congr 1
    congr 1
    rcases hε x with a | a <;> rcases hε y with b | b <;> rcases hε z with d | d <;> simp only [a, b, d] <;> ring

theorem sccXyz_axis (p : SccIn ℝ) : sccXyz (axisScc ε p) = sccXyz p := by
  simp only [sccXyz, axisScc, sq_tripleSign hε]
  refine congrArg₂ (· + ·) (congrArg₂ (· + ·) (congrArg₂ (· + ·) (congrArg₂ (· + ·) (congrArg₂ (· - ·)
    (congrArg (fun v => Arith.lit 3.0 * v / Arith.lit 16.0) ?_) (congrArg (· * _) ?_)) (congrArg (· * _) ?_)) ?_) ?_) ?_
  · congr 1
    funext z
    rcases hε 0 with a | a <;> rcases hε 1 with b | b <;> rcases hε 2 with d | d <;> rcases hε z with g | g <;>
      simp only [a, b, d, g, sq_real] <;> ring
  · congr 1
    funext i
    congr 1
    unfold tripleSign
    rcases hε 0 with a | a <;> rcases hε 1 with b | b <;> rcases hε 2 with d | d <;> simp only [a, b, d] <;> ring
  · congr 1
    funext i j k
    congr 1
    simp only [packSign]
    rcases hε 0 with a | a <;> rcases hε 1 with b | b <;> rcases hε 2 with d | d <;> norm_num [a, b, d]
  · congr 1
    rcases hε 1 with b | b <;> rcases hε 2 with d | d <;> simp only [b, d] <;> ring
  · congr 1
    rcases hε 0 with b | b <;> rcases hε 2 with d | d <;> simp only [b, d] <;> ring
  · congr 1
    rcases hε 0 with b | b <;> rcases hε 1 with d | d <;> simp only [b, d] <;> ring

theorem scc_axis (p : SccIn ℝ) (rotor : Rotor) (maxcor nfreq : Nat) :
    scc (axisScc ε p) rotor maxcor nfreq = scc p rotor maxcor nfreq := by
  have key : ∀ p : SccIn ℝ, sccWrites (axisScc ε p) rotor maxcor = sccWrites p rotor maxcor := by
    intro p
    simp only [sccWrites, sccDiag_reverse hε, sccPair_axis hε, sccXyz_axis hε]
  unfold scc
  by_cases h6 : nfreq = 6
  · simp only [if_pos h6]
    rw [← key { p with rotcon := fun i => p.rotcon (2 - i) }]
    rfl
  · simp only [if_neg h6]
    rw [key p]

theorem sextic_axis (nvib nfreq : Nat) (B I w : Vec ℝ) {A : Mat ℝ} (z f3 : T3 ℝ) (hA : ∀ k c, 6 ≤ c → A k c = 0) :
    Sextic.new .asymmTop nvib nfreq B I w (fun k c => packSign ε c * A k c) (fun i j x => turnSign ε x * z i j x) f3 =
      Sextic.new .asymmTop nvib nfreq B I w A z f3 := by
  have h : sexticScc .asymmTop nvib nfreq B I w (fun k c => packSign ε c * A k c) (fun i j x => turnSign ε x * z i j x) f3 =
      sexticScc .asymmTop nvib nfreq B I w A z f3 := by
    simp only [sexticScc, cMat_axis, makeTau_axis hε nvib w _ hA, Rotor.spectroLinear, Bool.false_eq_true, if_false,
      ccTensor_axis hε]
    exact scc_axis hε ⟨nvib, _, B, w, _, f3, _⟩ _ _ _
  simp only [Sextic.new, makeTau_axis hε nvib w _ hA, tauPrime_axis hε, h]

end

end Verif
