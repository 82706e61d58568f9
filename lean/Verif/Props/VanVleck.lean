import Verif.Lemmas.VanVleckGen

/-!
# C108: the couplings of the polyad code are those of second-order perturbation theory

`genrsa` (/repo/spectro/src/polyads.rs:115-334) against the matrix elements of the vibrational Hamiltonian between the
states of the oscillators.
-/

namespace Verif

open Osc Finset

variable {N : Nat}

/-! ## Existence of what the theorems speak of -/

/-- C108: there is a scalar product of the wave functions. -/
theorem c108_scalar_product : ∃ ip : Wave N → Wave N → ℝ, ScalarProduct ip := ⟨_, oscProduct_scalar⟩

/-- C108: with every resonance listed, every state has a change of first order. -/
theorem c108_response_exists (f1 : List Fermi1) (f2 : List Fermi2) (w : Vec ℝ) (φ : T3 ℝ) (hp : ∀ i < N, 0 < w i)
    (hw : OnlyListed (Listed f1 f2) N w) (a : Fin N → Nat) : ∃ p, Response (Listed f1 f2) w φ a p :=
  response_exists φ hp hw a

/-! ## The couplings -/

theorem ready {t : PolyadCtx ℝ} {f1 : List Fermi1} {f2 : List Fermi2} (hm : t.i1mode = List.range N)
    (hd : t.dnm = initResDenom t.freq f1 f2) (hoff : ∀ a b c, Listed f1 f2 a b c → c ≠ a ∧ c ≠ b)
    (h3 : Symm3 N t.f3) (h4 : Symm4 N t.f4) (hz : ∀ a k l, k < N → l < N → t.zmat k l a = -t.zmat l k a)
    (hp : ∀ i < N, 0 < t.freq i) :
    Ready t N (inv (fun i : Fin N => t.freq i) fun i j k : Fin N => Listed f1 f2 i j k) where
  modes := hm
  den := by rw [hd]; exact den_listed t.freq hoff
  odd := (inv_inv _ (listed_rel N hoff)).odd
  pos i := hp i i.2
  s3 i j k := h3 i j k i.2 j.2 k.2
  s4 i j k l := h4 i j k l i.2 j.2 k.2 l.2
  zeta i j a := hz a i j i.2 j.2

theorem cub_minus (φ : Fin N → Fin N → Fin N → ℝ) (f : (Fin N → ℤ) → ℝ) : cub φ (-f) = -cub φ f := by
  rw [cub_cube, cub_cube, map_neg, smul_neg]

theorem value_coupling {t : PolyadCtx ℝ} {f1 : List Fermi1} {f2 : List Fermi2} {ip : Wave N → Wave N → ℝ} (hip : ScalarProduct ip)
    {a b : Nat → Nat} {a1 b1 : Wave N} (ha : Response (Listed f1 f2) t.freq t.f3 (fun v : Fin N => a v) a1)
    (hb : Response (Listed f1 f2) t.freq t.f3 (fun v : Fin N => b v) b1) :
    value t (inv (fun i : Fin N => t.freq i) fun i j k : Fin N => Listed f1 f2 i j k) a b =
      coupling ip t.freq t.f3 t.f4 t.zmat t.rotcon (fun v : Fin N => a v) (fun v : Fin N => b v) a1 b1 := by
  have key := ip_mean hip (fun v : Fin N => a v) (fun v : Fin N => b v)
  unfold value mean2 coupling
  rw [← key]
  congr 2
  rw [ip_osc hip _ (cubic _ a1), ip_osc hip _ (cubic _ b1), ip_osc hip _ (quartic _ _ + _), ip_osc hip _ (quartic _ (oscState fun v : Fin N => b v) + _),
    amp_cubic, amp_cubic, amp_response ha, amp_response hb, cub_minus, cub_minus, amp_second, amp_second]
  unfold elt
  simp only [Pi.neg_apply]
  ring

theorem coupling_symm (ip : Wave N → Wave N → ℝ) (w : Nat → ℝ) (φ : Nat → Nat → Nat → ℝ)
    (ψ : Nat → Nat → Nat → Nat → ℝ) (ζ : Nat → Nat → Nat → ℝ) (B : Nat → ℝ) (a b : Fin N → Nat) (a1 b1 : Wave N) :
    coupling ip w φ ψ ζ B a b a1 b1 = coupling ip w φ ψ ζ B b a b1 a1 := by
  unfold coupling
  rw [add_comm, mul_comm (Real.sqrt _)]

section
variable (t : PolyadCtx ℝ) (f1 : List Fermi1) (f2 : List Fermi2) (hm : t.i1mode = List.range N)
  (hd : t.dnm = initResDenom t.freq f1 f2) (hoff : ∀ a b c, Listed f1 f2 a b c → c ≠ a ∧ c ≠ b)
  (h3 : Symm3 N t.f3) (h4 : Symm4 N t.f4) (hz : ∀ a k l, k < N → l < N → t.zmat k l a = -t.zmat l k a)
  (hp : ∀ i < N, 0 < t.freq i) (_hw : OnlyListed (Listed f1 f2) N t.freq)
  {ip : Wave N → Wave N → ℝ} (hip : ScalarProduct ip) {a b : Nat → Nat} {a1 b1 : Wave N}
  (ha : Response (Listed f1 f2) t.freq t.f3 (fun v : Fin N => a v) a1)
  (hb : Response (Listed f1 f2) t.freq t.f3 (fun v : Fin N => b v) b1)
include hm hd hoff h3 h4 hz hp _hw hip ha hb

/-- C108: the coupling of two states that differ by two quanta in one mode against two in another (Darling-Dennison) is
their matrix element in second order, the listed resonances left out of the intermediate states. -/
theorem c108_two_two {i j : Nat} (hi : i < N) (hj : j < N) (hij : i ≠ j)
    (h : ∀ v < N, b v + (if v = j then 2 else 0) = a v + if v = i then 2 else 0) :
    genrsa t N a b = some (coupling ip t.freq t.f3 t.f4 t.zmat t.rotcon (fun v : Fin N => a v) (fun v : Fin N => b v) a1 b1) := by
  rw [two_two (ready hm hd hoff h3 h4 hz hp) ⟨i, hi⟩ ⟨j, hj⟩ (fun e => hij (congrArg Fin.val e)) h, value_coupling hip ha hb]

/-- C108: the same for two quanta in one mode against one in each of two others, from either side. -/
theorem c108_two_one_one {i j k : Nat} (hi : i < N) (hj : j < N) (hk : k < N) (hij : i ≠ j) (hik : i ≠ k) (hjk : j ≠ k)
    (h : ∀ v < N, b v + (if v = j then 1 else 0) + (if v = k then 1 else 0) = a v + if v = i then 2 else 0) :
    genrsa t N a b = some (coupling ip t.freq t.f3 t.f4 t.zmat t.rotcon (fun v : Fin N => a v) (fun v : Fin N => b v) a1 b1) ∧
    genrsa t N b a = some (coupling ip t.freq t.f3 t.f4 t.zmat t.rotcon (fun v : Fin N => b v) (fun v : Fin N => a v) b1 a1) := by
  have := two_one_one (ready hm hd hoff h3 h4 hz hp) ⟨i, hi⟩ ⟨j, hj⟩ ⟨k, hk⟩ (fun e => hij (congrArg Fin.val e))
    (fun e => hik (congrArg Fin.val e)) (fun e => hjk (congrArg Fin.val e)) h
  rw [value_coupling hip ha hb] at this
  exact ⟨this, by rw [c61_symmetric, coupling_symm, this]⟩

/-- C108: the same for one quantum in one mode against one in another; the sum runs over the quanta of all other modes. -/
theorem c108_one_one {i j : Nat} (hi : i < N) (hj : j < N) (hij : i ≠ j)
    (h : ∀ v < N, b v + (if v = j then 1 else 0) = a v + if v = i then 1 else 0) :
    genrsa t N a b = some (coupling ip t.freq t.f3 t.f4 t.zmat t.rotcon (fun v : Fin N => a v) (fun v : Fin N => b v) a1 b1) := by
  rw [one_one (ready hm hd hoff h3 h4 hz hp) ⟨i, hi⟩ ⟨j, hj⟩ (fun e => hij (congrArg Fin.val e)) h, value_coupling hip ha hb]

end

/-! ## The Fermi resonances: the matrix element of the cubic potential -/

theorem cubic_value {φ : Nat → Nat → Nat → ℝ} (hφ : Sy3 fun i j k : Fin N => φ i j k) {ip : Wave N → Wave N → ℝ}
    (hip : ScalarProduct ip) {a b : Nat → Nat} (i j k : Fin N) (hki : k ≠ i) (hkj : k ≠ j)
    (h : ∀ v < N, b v + (if v = (k : Nat) then 1 else 0) = a v + (if v = (i : Nat) then 1 else 0) + if v = (j : Nat) then 1 else 0) :
    cubicCoupling ip φ (fun v : Fin N => a v) (fun v : Fin N => b v) = (φ i j k * if i = j then 1 / 2 else 1) *
      Real.sqrt (((a i : ℝ) + 1) * (a j + if i = j then 2 else 1) * (b k + 1) / 8) := by
  have hs : unit i + unit j - unit k = toInt (fun v : Fin N => b v) - toInt fun v : Fin N => a v := by
    funext v
    have := h v v.2
    simp only [Fin.val_inj] at this
    simp only [Pi.sub_apply, Pi.add_apply, unit_at, toInt]
    split_ifs at this ⊢ <;> omega
  have key := ip_mean hip (fun v : Fin N => a v) (fun v : Fin N => b v)
    (cub (fun i j k : Fin N => φ i j k) (Osc.one (toInt fun v : Fin N => a v)) (toInt fun v : Fin N => b v)) 0
  rw [zero_mul, zero_mul, add_zero, add_zero, cub_shift hφ hki hkj hs] at key
  unfold cubicCoupling
  rw [ip_osc hip, amp_cubic, amp_oscState, cub_shift hφ hki hkj hs]
  have hd : ∀ x y u : ℝ, x / 2 / y = u / 2 → x / y = u := fun x y u h => by
    rw [div_right_comm] at h; linarith
  rw [hd _ _ _ key]
  simp only [toInt_at, Int.cast_natCast]
  have hr3 : rt ^ 3 = Real.sqrt (1 / 8) := by
    have p : 0 ≤ rt ^ 3 := by unfold rt; positivity
    rw [← Real.sqrt_sq p, show (rt ^ 3) ^ 2 = (rt * rt) ^ 3 by ring, rt_sq]
    norm_num
  have hX : (0 : ℝ) < ((a i : ℝ) + 1) * (a j + if i = j then 2 else 1) := by split_ifs <;> positivity
  have hwt : ((b k : ℝ) + 1) * wt (toInt fun v : Fin N => b v) =
      ((a i : ℝ) + 1) * (a j + if i = j then 2 else 1) * wt (toInt fun v : Fin N => a v) := by
    have e : (toInt fun v : Fin N => b v) + unit k = (toInt fun v : Fin N => a v) + unit i + unit j := by
      linear_combination -hs
    have e1 := wt_add k (m := toInt fun v : Fin N => b v) (toInt_nonneg _ _)
    have e2 := wt_add j (m := (toInt fun v : Fin N => a v) + unit i)
      (by simp only [Pi.add_apply, toInt_at, unit_at]; split_ifs <;> omega)
    rw [e, e2, wt_add i (toInt_nonneg _ _)] at e1
    simp only [Pi.add_apply, toInt_at, unit_at, eq_comm (a := j)] at e1
    push_cast at e1
    rw [← e1]
    split_ifs <;> (push_cast; ring)
  have key2 := sqrt_ratio (wt_pos (toInt fun v : Fin N => b v)) (wt_pos (toInt fun v : Fin N => a v)) hX (by positivity : (0 : ℝ) < (b k : ℝ) + 1) hwt
    (4 * rt ^ 3 * (φ i j k * if i = j then 1 / 2 else 1))
  have hsq : Real.sqrt (((a i : ℝ) + 1) * (a j + if i = j then 2 else 1) * (b k + 1) / 8) =
      4 * rt ^ 3 * Real.sqrt (((a i : ℝ) + 1) * (a j + if i = j then 2 else 1) * (b k + 1) / 16) := by
    rw [hr3, show (4 : ℝ) = Real.sqrt 16 by rw [show (16 : ℝ) = 4 ^ 2 by norm_num, Real.sqrt_sq (by norm_num)],
      ← Real.sqrt_mul (by norm_num), ← Real.sqrt_mul (by norm_num)]
    congr 1
    ring
  rw [hsq]
  linear_combination key2

theorem quanta_three {a b : Nat → Nat} {i j k : Nat} (hi : i < N) (hj : j < N) (hk : k < N) (hki : k ≠ i) (hkj : k ≠ j)
    (h : ∀ v < N, b v + (if v = k then 1 else 0) = a v + (if v = i then 1 else 0) + if v = j then 1 else 0) :
    quantaApart N a b = 3 := by
  have e : quantaApart N a b = ∑ v ∈ range N, ((if v = k then 1 else 0) + (if v = i then 1 else 0) + if v = j then 1 else 0) := by
    unfold quantaApart
    refine sum_congr rfl fun v hv => ?_
    have := h v (mem_range.1 hv)
    split_ifs at this ⊢ <;> omega
  rw [e]
  simp [sum_add_distrib, Finset.sum_ite_eq', hi, hj, hk]

section
variable (t : PolyadCtx ℝ) (f1 : List Fermi1) (f2 : List Fermi2) (hd : t.dnm = initResDenom t.freq f1 f2)
  (h3 : ∀ i j k, t.f3 i j k = t.f3 j i k ∧ t.f3 i j k = t.f3 i k j)
  {ip : Wave N → Wave N → ℝ} (hip : ScalarProduct ip) {a b : Nat → Nat}
include hd h3 hip

/-- C108: a listed Fermi resonance of an overtone with a fundamental couples the states by the cubic potential. -/
theorem c108_fermi1 {i k : Nat} (hf : (⟨i, k⟩ : Fermi1) ∈ f1) (hi : i < N) (hk : k < N) (hki : k ≠ i)
    (h : ∀ v < N, b v + (if v = k then 1 else 0) = a v + if v = i then 2 else 0) :
    genrsa t N a b = some (cubicCoupling ip t.f3 (fun v : Fin N => a v) fun v : Fin N => b v) ∧
    genrsa t N b a = some (cubicCoupling ip t.f3 (fun v : Fin N => a v) fun v : Fin N => b v) := by
  have h' : ∀ v < N, b v + (if v = k then 1 else 0) = a v + (if v = i then 1 else 0) + if v = i then 1 else 0 := by
    intro v hv; rw [h v hv]; split_ifs <;> omega
  have hI := h i hi
  have hK := h k hk
  rw [if_pos rfl, if_neg (Ne.symm hki)] at hI
  rw [if_pos rfl, if_neg hki] at hK
  have hs : Sy3 fun i j k : Fin N => t.f3 i j k := fun i j k => h3 i j k
  have key := cubic_value hs hip (a := a) (b := b) ⟨i, hi⟩ ⟨i, hi⟩ ⟨k, hk⟩ (fun e => hki (congrArg Fin.val e)) (fun e => hki (congrArg Fin.val e)) h'
  have g := c61_fermi1 t N a b f1 f2 hd (fun i j k => by rw [(h3 i j k).1, (h3 j i k).2]) ⟨i, k⟩ hf hi hk
    (quanta_three hi hi hk hki hki h') (by simp only; omega) (by simp only; omega)
  have e : genrsa t N a b = some (cubicCoupling ip t.f3 (fun v : Fin N => a v) fun v : Fin N => b v) := by
    rw [g, key]
    simp only [if_true]
    have m1 : min (a i) (b i) = a i := by omega
    have m2 : min (a k) (b k) = b k := by omega
    rw [m1, m2]
    congr 2
    ring
  exact ⟨e, by rw [c61_symmetric]; exact e⟩

/-- C108: the same for a listed resonance of a combination with a fundamental. -/
theorem c108_fermi2 {i j k : Nat} (hf : (⟨i, j, k⟩ : Fermi2) ∈ f2) (hi : i < N) (hj : j < N) (hk : k < N) (hij : i ≠ j)
    (hki : k ≠ i) (hkj : k ≠ j)
    (h : ∀ v < N, b v + (if v = k then 1 else 0) = a v + (if v = i then 1 else 0) + if v = j then 1 else 0) :
    genrsa t N a b = some (cubicCoupling ip t.f3 (fun v : Fin N => a v) fun v : Fin N => b v) ∧
    genrsa t N b a = some (cubicCoupling ip t.f3 (fun v : Fin N => a v) fun v : Fin N => b v) := by
  have hI := h i hi
  have hJ := h j hj
  have hK := h k hk
  rw [if_pos rfl, if_neg (Ne.symm hki), if_neg hij] at hI
  rw [if_pos rfl, if_neg (Ne.symm hkj), if_neg (Ne.symm hij)] at hJ
  rw [if_pos rfl, if_neg hki, if_neg hkj] at hK
  have hs : Sy3 fun i j k : Fin N => t.f3 i j k := fun i j k => h3 i j k
  have key := cubic_value hs hip (a := a) (b := b) ⟨i, hi⟩ ⟨j, hj⟩ ⟨k, hk⟩ (fun e => hki (congrArg Fin.val e)) (fun e => hkj (congrArg Fin.val e)) h
  have g := c61_fermi2 t N a b f1 f2 hd (fun i j k => ⟨by rw [(h3 i j k).1, (h3 j i k).2], (h3 i j k).1⟩) ⟨i, j, k⟩ hf hi hj hk hij
    (Ne.symm hki) (Ne.symm hkj) (quanta_three hi hj hk hki hkj h) (by simp only; omega) (by simp only; omega) (by simp only; omega)
  have e : genrsa t N a b = some (cubicCoupling ip t.f3 (fun v : Fin N => a v) fun v : Fin N => b v) := by
    rw [g, key, if_neg (fun e => hij (congrArg Fin.val e)), if_neg (fun e => hij (congrArg Fin.val e)), mul_one]
    have m1 : min (a i) (b i) = a i := by omega
    have m2 : min (a j) (b j) = a j := by omega
    have m3 : min (a k) (b k) = b k := by omega
    simp only [m1, m2, m3]
  exact ⟨e, by rw [c61_symmetric]; exact e⟩

end

/-! ## From the Schrödinger equation -/

/-- Without resonances, for states an even number of quanta apart, the code's coupling is the off-diagonal element of
the effective Hamiltonian of the two states that the Schrödinger equation gives in second order. -/
theorem value_effective {t : PolyadCtx ℝ} {ip : Wave N → Wave N → ℝ} (hip : ScalarProduct ip)
    {a b : Nat → Nat} (hab : ∃ v < N, a v ≠ b v) (al : Alone N t.freq a b) (even : Even (∑ v : Fin N, ((b v : ℤ) - a v)))
    {h0 h1 h2 : Fin 2 → Fin 2 → ℝ}
    (h : VibEffective t.freq t.f3 t.f4 t.zmat t.rotcon (fun v : Fin N => a v) (fun v : Fin N => b v) h0 h1 h2) :
    value t (inv (fun i : Fin N => t.freq i) fun i j k : Fin N => Listed [] [] i j k) a b =
      offDiagonal ip (fun v : Fin N => a v) (fun v : Fin N => b v) h2 := by
  have hne : (fun v : Fin N => a v) ≠ fun v : Fin N => b v := by
    obtain ⟨v, hv, hn⟩ := hab
    exact fun e => hn (congrFun e ⟨v, hv⟩)
  obtain ⟨-, -, f, f0, fn, fe, hh⟩ := eff_parts hne h
  have nl : ∀ i j k : Fin N, ¬ Listed [] [] (i : Nat) j k := by simp [Listed]
  have ns : ∀ s : Fin N → ℤ, ¬ Shift (fun i j k : Fin N => Listed [] [] i j k) s := by
    rintro s ⟨i, j, k, hl, -⟩
    exact nl i j k hl
  have z2 : ∀ x y : Fin N → ℤ, Even (∑ v, (y v - x v)) → ∀ F : Fin N → Fin N → Fin N → ℝ, cub F (Osc.one x) y = 0 := by
    intro x y hev F
    refine tot_zero (tot_cub (tot_one x) F) ?_
    rw [(ZMod.intCast_zmod_eq_zero_iff_dvd _ 2).2 hev.two_dvd]
    decide
  have ev' : Even (∑ v : Fin N, ((a v : ℤ) - b v)) := by
    have := even.neg
    rw [← sum_neg_distrib] at this
    simpa using this
  have main : ∀ (j : Fin 2) (c d : Nat → Nat), (![fun v : Fin N => a v, fun v : Fin N => b v] : Fin 2 → Fin N → Nat) j = (fun v : Fin N => c v) →
      ((fun v : Fin N => c v) = (fun v : Fin N => a v) ∧ (fun v : Fin N => d v) = (fun v : Fin N => b v) ∨
        (fun v : Fin N => c v) = (fun v : Fin N => b v) ∧ (fun v : Fin N => d v) = fun v : Fin N => a v) →
      f j = -dia (inv (fun i : Fin N => t.freq i) fun i j k : Fin N => Listed [] [] i j k) (toInt fun v : Fin N => c v)
        (cub (fun i j k : Fin N => t.f3 i j k) (Osc.one (toInt fun v : Fin N => c v))) := by
    intro j c d hj hcd
    funext m
    rw [Pi.neg_apply, dia_apply]
    have hzero : ∀ x : Fin N → Nat, x = (fun v : Fin N => c v) ∨ x = (fun v : Fin N => d v) →
        f j (toInt x) = 0 ∧ cub (fun i j k : Fin N => t.f3 i j k) (Osc.one (toInt fun v : Fin N => c v)) (toInt x) = 0 := by
      rintro x (rfl | rfl)
      · refine ⟨?_, cub_diag _ _⟩
        have := f0 j j
        rwa [hj] at this
      · constructor
        · rcases hcd with ⟨-, e⟩ | ⟨-, e⟩ <;> rw [e]
          · exact f0 1 j
          · exact f0 0 j
        · refine z2 _ _ ?_ _
          rcases hcd with ⟨e1, e2⟩ | ⟨e1, e2⟩ <;> rw [e1, e2]
          · exact even
          · exact ev'
    by_cases hm : ∀ v, 0 ≤ m v
    · obtain ⟨x, rfl⟩ := nonneg_toInt hm
      by_cases hx : x = (fun v : Fin N => c v) ∨ x = fun v : Fin N => d v
      · rw [(hzero x hx).1, (hzero x hx).2]; simp
      · have hxa : x ≠ fun v : Fin N => a v := by
          rintro rfl
          rcases hcd with ⟨e, -⟩ | ⟨-, e⟩ <;> simp [e] at hx
        have hxb : x ≠ fun v : Fin N => b v := by
          rintro rfl
          rcases hcd with ⟨-, e⟩ | ⟨e, -⟩ <;> simp [e] at hx
        have lv := alone_level al x hxa hxb
        have fe' := fe j (toInt x) (fun e => hxa (toInt_inj e)) (fun e => hxb (toInt_inj e))
        rw [hj] at fe'
        have hl : level t.freq (toInt x) - level t.freq (toInt fun v : Fin N => c v) ≠ 0 := by
          rcases hcd with ⟨e, -⟩ | ⟨e, -⟩ <;> rw [e]
          · exact sub_ne_zero.2 lv.1
          · exact sub_ne_zero.2 lv.2
        rw [inv, frac_no (ns _), gap_shift, gap_level]
        field_simp
        linear_combination fe'
    · push Not at hm
      obtain ⟨v, hv⟩ := hm
      rw [fn j m v hv, cub_neg _ hv]; simp
  have h10 := hh 1 0
  have h01 := hh 0 1
  rw [main 0 a b rfl (.inl ⟨rfl, rfl⟩)] at h10
  rw [main 1 b a rfl (.inr ⟨rfl, rfl⟩)] at h01
  have s0 : (![fun v : Fin N => a v, fun v : Fin N => b v] : Fin 2 → Fin N → Nat) 0 = fun v : Fin N => a v := rfl
  have s1 : (![fun v : Fin N => a v, fun v : Fin N => b v] : Fin 2 → Fin N → Nat) 1 = fun v : Fin N => b v := rfl
  rw [s0, s1, cub_minus, amp_second] at h10
  rw [s0, s1, cub_minus, amp_second] at h01
  unfold offDiagonal
  rw [ip_mean hip, h10, h01]
  unfold value mean2 elt
  simp only [Pi.neg_apply]

section
variable (t : PolyadCtx ℝ) (hm : t.i1mode = List.range N) (hd : t.dnm = initResDenom t.freq [] [])
  (h3 : Symm3 N t.f3) (h4 : Symm4 N t.f4) (hz : ∀ a k l, k < N → l < N → t.zmat k l a = -t.zmat l k a)
  (hp : ∀ i < N, 0 < t.freq i) (_hw : NoResonance N t.freq)
  {ip : Wave N → Wave N → ℝ} (hip : ScalarProduct ip) {a b : Nat → Nat} (al : Alone N t.freq a b)
  {h0 h1 h2 : Fin 2 → Fin 2 → ℝ}
  (h : VibEffective t.freq t.f3 t.f4 t.zmat t.rotcon (fun v : Fin N => a v) (fun v : Fin N => b v) h0 h1 h2)
include hm hd h3 h4 hz hp _hw hip al h

/-- C108: two quanta in one mode against two in another. -/
theorem c108_effective_two_two {i j : Nat} (hi : i < N) (hj : j < N) (hij : i ≠ j)
    (hab : ∀ v < N, b v + (if v = j then 2 else 0) = a v + if v = i then 2 else 0) :
    genrsa t N a b = some (offDiagonal ip (fun v : Fin N => a v) (fun v : Fin N => b v) h2) := by
  rw [two_two (ready hm hd (by simp [Listed]) h3 h4 hz hp) ⟨i, hi⟩ ⟨j, hj⟩ (fun e => hij (congrArg Fin.val e)) hab,
    value_effective hip ⟨i, hi, ?_⟩ al ?_ h]
  · have := hab i hi
    rw [if_pos rfl, if_neg hij] at this
    omega
  · refine Finset.even_sum _ fun v _ => ?_
    have := hab v v.2
    rw [Int.even_iff]
    split_ifs at this <;> omega

/-- C108: two quanta in one mode against one in each of two others. -/
theorem c108_effective_two_one_one {i j k : Nat} (hi : i < N) (hj : j < N) (hk : k < N) (hij : i ≠ j) (hik : i ≠ k) (hjk : j ≠ k)
    (hab : ∀ v < N, b v + (if v = j then 1 else 0) + (if v = k then 1 else 0) = a v + if v = i then 2 else 0) :
    genrsa t N a b = some (offDiagonal ip (fun v : Fin N => a v) (fun v : Fin N => b v) h2) ∧
    genrsa t N b a = some (offDiagonal ip (fun v : Fin N => a v) (fun v : Fin N => b v) h2) := by
  have e : genrsa t N a b = some (offDiagonal ip (fun v : Fin N => a v) (fun v : Fin N => b v) h2) := by
    rw [two_one_one (ready hm hd (by simp [Listed]) h3 h4 hz hp) ⟨i, hi⟩ ⟨j, hj⟩ ⟨k, hk⟩ (fun e => hij (congrArg Fin.val e))
      (fun e => hik (congrArg Fin.val e)) (fun e => hjk (congrArg Fin.val e)) hab, value_effective hip ⟨i, hi, ?_⟩ al ?_ h]
    · have := hab i hi
      rw [if_pos rfl, if_neg hij, if_neg hik] at this
      omega
    · have : ∑ v : Fin N, ((b v : ℤ) - a v) = ∑ v : Fin N, ((if v = ⟨i, hi⟩ then 2 else 0) - (if v = ⟨j, hj⟩ then 1 else 0) - if v = ⟨k, hk⟩ then 1 else 0) := by
        refine sum_congr rfl fun v _ => ?_
        have := hab v v.2
        simp only [Fin.ext_iff]
        split_ifs at this ⊢ <;> omega
      rw [this]
      simp [sum_sub_distrib]
  exact ⟨e, by rw [c61_symmetric]; exact e⟩

/-- C108: one quantum in one mode against one in another. -/
theorem c108_effective_one_one {i j : Nat} (hi : i < N) (hj : j < N) (hij : i ≠ j)
    (hab : ∀ v < N, b v + (if v = j then 1 else 0) = a v + if v = i then 1 else 0) :
    genrsa t N a b = some (offDiagonal ip (fun v : Fin N => a v) (fun v : Fin N => b v) h2) := by
  rw [one_one (ready hm hd (by simp [Listed]) h3 h4 hz hp) ⟨i, hi⟩ ⟨j, hj⟩ (fun e => hij (congrArg Fin.val e)) hab,
    value_effective hip ⟨i, hi, ?_⟩ al ?_ h]
  · have := hab i hi
    rw [if_pos rfl, if_neg hij] at this
    omega
  · have : ∑ v : Fin N, ((b v : ℤ) - a v) = ∑ v : Fin N, ((if v = ⟨i, hi⟩ then 1 else 0) - (if v = ⟨j, hj⟩ then 1 else 0)) := by
      refine sum_congr rfl fun v _ => ?_
      have := hab v v.2
      simp only [Fin.ext_iff]
      split_ifs at this ⊢ <;> omega
    rw [this]
    simp [sum_sub_distrib]

end

/-! ## Cases meeting the hypotheses -/

/-- `N` modes near 1000, with Coriolis coupling. -/
noncomputable def vanVleckEx (N : Nat) (f1 : List Fermi1) : PolyadCtx ℝ where
  i1mode := List.range N
  freq := fun i => if i = 0 then 1000 else if i = 1 then 1010 else 2000
  rotcon := fun _ => 1
  zmat := fun i j _ => (i : ℝ) - j
  f3 := fun _ _ _ => 30
  f4 := fun _ _ _ _ => 12
  dnm := initResDenom (fun i => if i = 0 then 1000 else if i = 1 then 1010 else 2000) f1 []

theorem vanVleckEx_pos (N : Nat) (f1 : List Fermi1) (i : Nat) : 0 < (vanVleckEx N f1).freq i := by
  simp only [vanVleckEx]; split_ifs <;> norm_num

theorem vanVleckEx_none (f1 : List Fermi1) : NoResonance 2 (vanVleckEx 2 f1).freq := by
  intro i j k hi hj hk
  have b : ∀ i, i < 2 → 1000 ≤ (vanVleckEx 2 f1).freq i ∧ (vanVleckEx 2 f1).freq i ≤ 1010 := by
    intro i hi
    simp only [vanVleckEx]
    split_ifs with h1 h2 <;> first | omega | norm_num
  have := b i hi
  have := b j hj
  have := b k hk
  constructor <;> intro h <;> linarith

/-- The resonance `2 w0 = w2`, listed; the states `(2, 0, 1)` and `(0, 2, 1)`, and `(1, 0, 1)` and `(0, 1, 1)`. -/
example : ∃ ip : Wave 3 → Wave 3 → ℝ, ∃ a1 b1 c1 d1 : Wave 3, ScalarProduct ip ∧
    genrsa (vanVleckEx 3 [⟨0, 2⟩]) 3 (fun v => if v = 0 then 2 else if v = 1 then 0 else 1) (fun v => if v = 0 then 0 else if v = 1 then 2 else 1) =
      some (coupling ip (vanVleckEx 3 [⟨0, 2⟩]).freq (vanVleckEx 3 [⟨0, 2⟩]).f3 (vanVleckEx 3 [⟨0, 2⟩]).f4 (vanVleckEx 3 [⟨0, 2⟩]).zmat
        (vanVleckEx 3 [⟨0, 2⟩]).rotcon (fun v : Fin 3 => if (v : Nat) = 0 then 2 else if (v : Nat) = 1 then 0 else 1)
        (fun v : Fin 3 => if (v : Nat) = 0 then 0 else if (v : Nat) = 1 then 2 else 1) a1 b1) ∧
    genrsa (vanVleckEx 3 [⟨0, 2⟩]) 3 (fun v => if v = 0 then 1 else if v = 1 then 0 else 1) (fun v => if v = 0 then 0 else if v = 1 then 1 else 1) =
      some (coupling ip (vanVleckEx 3 [⟨0, 2⟩]).freq (vanVleckEx 3 [⟨0, 2⟩]).f3 (vanVleckEx 3 [⟨0, 2⟩]).f4 (vanVleckEx 3 [⟨0, 2⟩]).zmat
        (vanVleckEx 3 [⟨0, 2⟩]).rotcon (fun v : Fin 3 => if (v : Nat) = 0 then 1 else if (v : Nat) = 1 then 0 else 1)
        (fun v : Fin 3 => if (v : Nat) = 0 then 0 else if (v : Nat) = 1 then 1 else 1) c1 d1) := by
  have hl : ∀ i j k, Listed [⟨0, 2⟩] [] i j k ↔ i = 0 ∧ j = 0 ∧ k = 2 := by
    intro i j k
    simp only [Listed, List.mem_singleton, Fermi1.mk.injEq, List.not_mem_nil, or_false]
    constructor
    · rintro ⟨rfl, rfl, rfl⟩; exact ⟨rfl, rfl, rfl⟩
    · rintro ⟨rfl, rfl, rfl⟩; exact ⟨rfl, rfl, rfl⟩
  have hoff : ∀ a b c, Listed [⟨0, 2⟩] [] a b c → c ≠ a ∧ c ≠ b := by
    intro a b c h
    obtain ⟨rfl, rfl, rfl⟩ := (hl _ _ _).1 h
    decide
  have hw : OnlyListed (Listed [⟨0, 2⟩] []) 3 (vanVleckEx 3 [⟨0, 2⟩]).freq := by
    intro i j k hi hj hk hn
    rw [hl] at hn
    simp only [vanVleckEx]
    interval_cases i <;> interval_cases j <;> interval_cases k <;> first | exact absurd ⟨rfl, rfl, rfl⟩ hn | norm_num
  have hp : ∀ i < 3, 0 < (vanVleckEx 3 [⟨0, 2⟩]).freq i := fun i _ => vanVleckEx_pos _ _ i
  have hz : ∀ a k l, k < 3 → l < 3 → (vanVleckEx 3 [⟨0, 2⟩]).zmat k l a = -(vanVleckEx 3 [⟨0, 2⟩]).zmat l k a := by
    intro a k l _ _
    simp only [vanVleckEx]; ring
  have ex : ∀ a, ∃ p, Response (Listed [⟨0, 2⟩] []) (vanVleckEx 3 [⟨0, 2⟩]).freq (vanVleckEx 3 [⟨0, 2⟩]).f3 a p :=
    fun a => c108_response_exists _ _ _ _ hp hw a
  obtain ⟨ip, hip⟩ := c108_scalar_product (N := 3)
  obtain ⟨a1, ha⟩ := ex fun v : Fin 3 => if (v : Nat) = 0 then 2 else if (v : Nat) = 1 then 0 else 1
  obtain ⟨b1, hb⟩ := ex fun v : Fin 3 => if (v : Nat) = 0 then 0 else if (v : Nat) = 1 then 2 else 1
  obtain ⟨c1, hc⟩ := ex fun v : Fin 3 => if (v : Nat) = 0 then 1 else if (v : Nat) = 1 then 0 else 1
  obtain ⟨d1, hd⟩ := ex fun v : Fin 3 => if (v : Nat) = 0 then 0 else if (v : Nat) = 1 then 1 else 1
  exact ⟨ip, a1, b1, c1, d1, hip,
    c108_two_two _ [⟨0, 2⟩] [] rfl rfl hoff (fun _ _ _ _ _ _ => ⟨rfl, rfl⟩) (fun _ _ _ _ _ _ _ _ => ⟨rfl, rfl, rfl⟩) hz hp hw hip
      (a := fun v => if v = 0 then 2 else if v = 1 then 0 else 1) (b := fun v => if v = 0 then 0 else if v = 1 then 2 else 1) ha hb
      (i := 1) (j := 0) (by decide) (by decide) (by decide) (by decide),
    c108_one_one _ [⟨0, 2⟩] [] rfl rfl hoff (fun _ _ _ _ _ _ => ⟨rfl, rfl⟩) (fun _ _ _ _ _ _ _ _ => ⟨rfl, rfl, rfl⟩) hz hp hw hip
      (a := fun v => if v = 0 then 1 else if v = 1 then 0 else 1) (b := fun v => if v = 0 then 0 else if v = 1 then 1 else 1) hc hd
      (i := 1) (j := 0) (by decide) (by decide) (by decide) (by decide)⟩

/-- States meeting the hypotheses of `c108_two_one_one`, `c108_fermi1` and `c108_fermi2`: `(0, 1, 1)` and `(2, 0, 0)`; `(0, 0, 1)`
and `(2, 0, 0)`; `(0, 0, 1)` and `(1, 1, 0)`. -/
example : (∀ v < 3, (fun v => if v = 0 then 2 else 0) v + (if v = 1 then 1 else 0) + (if v = 2 then 1 else 0) =
      (fun v => if v = 0 then 0 else 1) v + if v = 0 then 2 else 0) ∧
    (∀ v < 3, (fun v => if v = 0 then 2 else 0) v + (if v = 2 then 1 else 0) = (fun v => if v = 2 then 1 else 0) v + if v = 0 then 2 else 0) ∧
    ∀ v < 3, (fun v => if v = 2 then 0 else 1) v + (if v = 2 then 1 else 0) =
      (fun v => if v = 2 then 1 else 0) v + (if v = 0 then 1 else 0) + if v = 1 then 1 else 0 := by
  decide

/-- The effective Hamiltonian of the two fundamentals, without resonances. -/
example : ∃ ip : Wave 2 → Wave 2 → ℝ, ∃ h0 h1 h2, ScalarProduct ip ∧
    VibEffective (vanVleckEx 2 []).freq (vanVleckEx 2 []).f3 (vanVleckEx 2 []).f4 (vanVleckEx 2 []).zmat (vanVleckEx 2 []).rotcon
      (fun v : Fin 2 => if (v : Nat) = 0 then 1 else 0) (fun v : Fin 2 => if (v : Nat) = 1 then 1 else 0) h0 h1 h2 ∧
    genrsa (vanVleckEx 2 []) 2 (fun v => if v = 0 then 1 else 0) (fun v => if v = 1 then 1 else 0) =
      some (offDiagonal ip (fun v : Fin 2 => if (v : Nat) = 0 then 1 else 0) (fun v : Fin 2 => if (v : Nat) = 1 then 1 else 0) h2) := by
  have al : Alone 2 (vanVleckEx 2 []).freq (fun v => if v = 0 then 1 else 0) fun v => if v = 1 then 1 else 0 := by
    intro m ⟨i, hi, h1⟩ ⟨j, hj, h2⟩
    simp only [vanVleckEx, sum_range_succ, sum_range_zero]
    norm_num
    constructor
    · intro h
      have e : 100 * m 0 + 101 * m 1 = 100 := by
        have : (100 : ℝ) * m 0 + 101 * m 1 = 100 := by linarith
        exact_mod_cast this
      apply h1
      have : m 0 = 1 ∧ m 1 = 0 := by omega
      interval_cases i <;> simp [this.1, this.2]
    · intro h
      have e : 100 * m 0 + 101 * m 1 = 101 := by
        have : (100 : ℝ) * m 0 + 101 * m 1 = 101 := by linarith
        exact_mod_cast this
      apply h2
      have : m 0 = 0 ∧ m 1 = 1 := by omega
      interval_cases j <;> simp [this.1, this.2]
  obtain ⟨h0, h1, h2, h⟩ := c104_effective_exists 2 (vanVleckEx 2 []).freq (vanVleckEx 2 []).f3 (vanVleckEx 2 []).zmat (vanVleckEx 2 []).f4
    (vanVleckEx 2 []).rotcon _ _ ⟨0, by decide, by decide⟩ al
  obtain ⟨ip, hip⟩ := c108_scalar_product (N := 2)
  exact ⟨ip, h0, h1, h2, hip, h, c108_effective_one_one _ rfl rfl (fun _ _ _ _ _ _ => ⟨rfl, rfl⟩)
    (fun _ _ _ _ _ _ _ _ => ⟨rfl, rfl, rfl⟩) (fun a k l _ _ => by simp only [vanVleckEx]; ring) (fun i _ => vanVleckEx_pos _ _ i)
    (vanVleckEx_none _) hip al h (i := 1) (j := 0) (by decide) (by decide) (by decide) (by decide)⟩

end Verif
