import Verif.Spec.RoundingAlpha
import Verif.Props.Rounding
import Verif.Props.Alpha

/-!
# C114: rounding errors of vibrationally averaged rotational constants of asymmetric tops
-/

namespace Verif

open Finset

variable {u κ : ℝ} {rnd : ℝ → ℝ}

section
variable (c : RoundCtx u κ rnd)
include c

theorem acc_mul_rel {e1 d1 : Nat} {x T : ℝ} {a : Fl rnd} (h : Acc u κ e1 d1 x a T) (b : Fl rnd) :
    Acc u κ (e1 + 1) d1 (x * b.val) (a * b) (T * |b.val|) :=
  acc_mul c h (acc_exact c b _ _ rfl rfl) (by omega) (by omega)

theorem rel_diff (a b : Fl rnd) : Rel u κ 1 0 (a.val - b.val) (a - b) := by
  have := rel_round c (e := 0) (d := 0) (e' := 1) (y := a.val - b.val) (t := 1) one_pos (by simp [growth]) (by simp [growth])
    (by omega)
  rw [mul_one] at this
  exact this

theorem rel_powf15 (a : Fl rnd) : Rel u κ 1 0 (Arith.powf15 a.val : ℝ) (Arith.powf15 a) := by
  have := rel_round c (e := 0) (d := 0) (e' := 1) (y := a.val ^ (3 / 2 : ℝ)) (t := 1) one_pos (by simp [growth])
    (by simp [growth]) (by omega)
  rw [mul_one] at this
  exact this

/-- The resonant term. -/
theorem acc_corReg (z wi wj : Fl rnd) (hi : 0 < wi.val) (hj : 0 < wj.val) {e' d : Nat} (he : 10 ≤ e') {v V : ℝ} {a : Fl rnd}
    (h : Acc u κ e' d v a V) : Acc u κ (e' + 1) d (corReg v z.val wi.val wj.val) (corReg a z wi wj)
      (V + z.val ^ 2 * (wi.val - wj.val) ^ 2 / (2 * (wj.val * (wi.val + wj.val)))) := by
  have hz := acc_sq c (e := 1) (d := 0) (acc_exact c z _ _ rfl rfl) (by omega) (by omega)
  have hd := acc_sq c (e := 3) (d := 0) (acc_of_rel c (rel_diff c wi wj)) (by omega) (by omega)
  have hn := acc_mul c (e := 7) (d := 0) (acc_mul c (e := 3) (d := 0) (acc_lit c 0.5 (1 / 2) (by norm_num [abs_of_pos])) hz
    (by omega) le_rfl) hd (by omega) le_rfl
  have hs := rel_mul c (e := 2) (d := 0) (rel_exact wj _ rfl) (rel_add c (e := 1) (d := 0) (rel_exact wi _ rfl)
    (rel_exact wj _ rfl) hi hj (by omega) (by omega) le_rfl le_rfl) (by omega) le_rfl
  have ht := acc_div c (e := 10) (d := d) hn hs rfl (by omega) (by omega)
  refine acc_mono c (acc_sub c h ht (e := e' + 1) (d := d) (by omega) (by omega) le_rfl le_rfl) le_rfl le_rfl (le_of_eq ?_)
  congr 1
  rw [abs_mul_abs_self, abs_mul_abs_self, abs_of_pos (by positivity)]
  field_simp

/-- The other terms. -/
theorem acc_corFull (z wi wj : Fl rnd) (hne : wi.val ^ 2 - wj.val ^ 2 ≠ 0)
    (hap : wi.val ^ 2 + wj.val ^ 2 ≤ κ * |wi.val ^ 2 - wj.val ^ 2|) {e' : Nat} (he : 10 ≤ e') {v V : ℝ} {a : Fl rnd}
    (h : Acc u κ e' 1 v a V) : Acc u κ (e' + 1) 1 (corFull v z.val wi.val wj.val) (corFull a z wi wj)
      (V + z.val ^ 2 * (3 * wi.val ^ 2 + wj.val ^ 2) / |wi.val ^ 2 - wj.val ^ 2|) := by
  have hz := acc_sq c (e := 1) (d := 0) (acc_exact c z _ _ rfl rfl) (by omega) (by omega)
  have hi := acc_sq c (e := 1) (d := 0) (acc_exact c wi _ _ rfl rfl) (by omega) (by omega)
  have hj := acc_sq c (e := 1) (d := 0) (acc_exact c wj _ _ rfl rfl) (by omega) (by omega)
  have hn := acc_mul c (e := 6) (d := 0) hz (acc_add c (e := 4) (d := 0) (acc_mul c (e := 3) (d := 0)
    (acc_lit c 3.0 3 (by norm_num)) hi (by omega) le_rfl) hj (by omega) (by omega) le_rfl le_rfl) (by omega) le_rfl
  have hs := rel_of_acc c (acc_sub c (e := 2) (d := 0) hi hj (by omega) (by omega) le_rfl le_rfl) (by omega)
    (by rw [sq_real, sq_real]; exact hne)
    (by rw [abs_mul_abs_self, abs_mul_abs_self, sq_real, sq_real, ← pow_two, ← pow_two]; exact hap)
  have ht := acc_div c (e := 7) (d := 1) hn hs rfl (by omega) (by omega)
  refine acc_mono c (acc_add c h ht (e := e' + 1) (d := 1) (by omega) (by omega) le_rfl le_rfl) le_rfl le_rfl (le_of_eq ?_)
  congr 1
  rw [abs_mul_abs_self, abs_mul_abs_self, abs_mul_abs_self, sq_real, sq_real]
  ring

theorem acc_sumTo (n e d : Nat) (he : 1 ≤ e) (f : Nat → ℝ) (g : Nat → Fl rnd) (T : Nat → ℝ)
    (h : ∀ i < n, Acc u κ e d (f i) (g i) (T i)) : Acc u κ (e + n) d (sumTo n f) (sumTo n g) (∑ i ∈ range n, T i) := by
  have := acc_foldl (u := u) (κ := κ) (d := d) (e := e) n (fun s i => s + f i) (fun s i => s + g i) T
    (fun l hl e' v a V he' hv => acc_add c hv (h l hl) (by omega) (by omega) le_rfl le_rfl)
    (acc_mono c (acc_lit c 0 0 (by simp)) he (Nat.zero_le d) le_rfl)
  rw [zero_add] at this
  exact this

/-- One vibration-rotation constant in both arithmetics. -/
theorem acc_alpha (n : Nat) (B I w : Vec (Fl rnd)) (A : Mat (Fl rnd)) (zeta F3 : T3 (Fl rnd)) (cs : List Coriolis) (i x : Nat)
    (hi : i < n) (hw : ∀ j < n, 0 < (w j).val)
    (ap : ∀ j < n, i ≠ j → makeIcorol cs (i, j) ≠ some x →
      (w i).val ^ 2 + (w j).val ^ 2 ≤ κ * |(w i).val ^ 2 - (w j).val ^ 2|) :
    Acc u κ (n + 17) 1 (alpha n (fun a => (B a).val) (fun a => (I a).val) (fun a => (w a).val) (fun a b => (A a b).val)
        (fun a b k => (zeta a b k).val) (fun a b k => (F3 a b k).val) cs i x)
      (alpha n B I w A zeta F3 cs i x)
      (alphaSize (fun i j x => makeIcorol cs (i, j) = some x) n (fun a => (B a).val) (fun a => (I a).val) (fun a => (w a).val)
        (fun k p q => (A k (pairIdx p q)).val) (fun a b k => (zeta a b k).val) (fun a b k => (F3 a b k).val) i x) := by
  have w0 := hw i hi
  have h0 := acc_div c (e := 4) (d := 0) (acc_mul c (e := 3) (d := 0) (acc_lit c 2.0 2 (by norm_num))
    (acc_sq c (e := 1) (d := 0) (acc_exact c (B x) _ _ rfl rfl) (by omega) (by omega)) (by omega) le_rfl)
    (rel_exact (w i) _ rfl) rfl (by omega) le_rfl
  have h1 := acc_mul c (e := 7) (d := 0) (acc_sumTo c 3 2 0 (by omega) _ _ _ fun y _ => acc_div c (e := 2) (d := 0)
    (acc_sq c (e := 1) (d := 0) (acc_exact c (A i (ioff (max x y + 1) + min x y)) _ _ rfl rfl) (by omega) (by omega))
    (rel_exact (I y) _ rfl) rfl (by omega) le_rfl) (acc_lit c 0.75 (3 / 4) (by norm_num [abs_of_pos])) (by omega) le_rfl
  have h2 := acc_foldl (u := u) (κ := κ) (d := 1) (e := 10) n
    (fun s j => if j ≠ i then
      if isAxis (makeIcorol cs (i, j)) x then corReg s (zeta i j x).val (w i).val (w j).val
      else corFull s (zeta i j x).val (w i).val (w j).val
      else s)
    (fun s j => if j ≠ i then
      if isAxis (makeIcorol cs (i, j)) x then corReg s (zeta i j x) (w i) (w j)
      else corFull s (zeta i j x) (w i) (w j)
      else s)
    (fun j => if j ≠ i then
      if isAxis (makeIcorol cs (i, j)) x then
        (zeta i j x).val ^ 2 * ((w i).val - (w j).val) ^ 2 / (2 * ((w j).val * ((w i).val + (w j).val)))
      else (zeta i j x).val ^ 2 * (3 * (w i).val ^ 2 + (w j).val ^ 2) / |(w i).val ^ 2 - (w j).val ^ 2|
      else 0)
    (fun j hj e' v a V he' hv => by
      split_ifs with hji ha
      · exact acc_corReg c _ _ _ w0 (hw j hj) he' hv
      · have g := ap j hj (Ne.symm hji) (fun h => ha ((isAxis_iff ..).2 h))
        refine acc_corFull c _ _ _ ?_ g he' hv
        intro h
        rw [h, abs_zero, mul_zero] at g
        nlinarith [hw j hj]
      · rw [add_zero]; exact acc_mono c hv (by omega) le_rfl le_rfl)
    (acc_mono c (acc_lit c 0 0 (by simp)) (by omega) (Nat.zero_le 1) le_rfl)
  have h3 := acc_mul c (e := n + 6) (d := 0) (acc_sumTo c n 4 0 (by omega) _ _ _ fun j _ => acc_div c (e := 4) (d := 0)
    (acc_mul_rel c (acc_mul_rel c (acc_exact c (A j (ioff (x + 2) - 1)) _ _ rfl rfl) (F3 i i j)) (w i))
    (rel_powf15 c (w j)) rfl (by omega) le_rfl) (acc_lit c 0.086112 0.086112 (by norm_num [abs_of_pos])) (by omega) le_rfl
  have h := acc_mul c (e := n + 17) (d := 1) h0 (acc_add c (e := n + 12) (d := 1) (acc_add c (e := n + 11) (d := 1) h1 h2
    (by omega) (by omega) (by omega) le_rfl) h3 (by omega) (by omega) le_rfl (by omega)) (by omega) (by omega)
  refine acc_mono c h le_rfl le_rfl (le_of_eq ?_)
  unfold alphaSize
  rw [abs_of_pos w0, abs_mul_abs_self, zero_add]
  have s1 : ∑ y ∈ range 3, |(A i (ioff (max x y + 1) + min x y)).val| * |(A i (ioff (max x y + 1) + min x y)).val| / |(I y).val| =
      ∑ y ∈ range 3, (A i (pairIdx x y)).val ^ 2 / |(I y).val| :=
    sum_congr rfl fun y _ => by rw [abs_mul_abs_self, ← pow_two]; rfl
  have s2 : ∑ j ∈ range n, (if j ≠ i then
      if isAxis (makeIcorol cs (i, j)) x then
        (zeta i j x).val ^ 2 * ((w i).val - (w j).val) ^ 2 / (2 * ((w j).val * ((w i).val + (w j).val)))
      else (zeta i j x).val ^ 2 * (3 * (w i).val ^ 2 + (w j).val ^ 2) / |(w i).val ^ 2 - (w j).val ^ 2|
      else 0) = ∑ j ∈ (range n).erase i, (if makeIcorol cs (i, j) = some x then
        (zeta i j x).val ^ 2 * ((w i).val - (w j).val) ^ 2 / (2 * ((w j).val * ((w i).val + (w j).val)))
      else (zeta i j x).val ^ 2 * (3 * (w i).val ^ 2 + (w j).val ^ 2) / |(w i).val ^ 2 - (w j).val ^ 2|) := by
    rw [← filter_ne', sum_filter]
    refine sum_congr rfl fun j _ => ?_
    simp only [isAxis_iff]
  have s3 : ∑ j ∈ range n, |(A j (ioff (x + 2) - 1)).val| * |(F3 i i j).val| * (w i).val / |(Arith.powf15 (w j).val : ℝ)| =
      ∑ j ∈ range n, |(A j (pairIdx x x)).val| * |(F3 i i j).val| * (w i).val / (w j).val ^ (3 / 2 : ℝ) :=
    sum_congr rfl fun j hj => by
      rw [ioff_diag, powf15_real, abs_of_pos (Real.rpow_pos_of_pos (hw j (mem_range.1 hj)) _)]
  rw [s1, s2, s3]
  simp only [pow_two]
  ring_nf

end

/-- The exact value. -/
theorem alpha_exact (n : Nat) (B I w : Vec ℝ) (A : Mat ℝ) (zeta F3 : T3 ℝ) (cs : List Coriolis) (i x : Nat) :
    alpha n B I w A zeta F3 cs i x = alphaSpec (fun i j x => makeIcorol cs (i, j) = some x) n B I w
      (fun k p q => A k (pairIdx p q)) zeta F3 i x := by
  rw [alpha_closed]
  unfold alphaFormula alphaSpec
  rw [filter_ne']
  rfl

/-- The resonances which the lookup knows are those listed, if no pair of modes is listed with two axes. -/
theorem icorol_eq {cs : List Coriolis}
    (hone : ∀ c ∈ cs, ∀ c' ∈ cs, (c.i = c'.i ∧ c.j = c'.j ∨ c.i = c'.j ∧ c.j = c'.i) → c.axis = c'.axis) :
    (fun i j x => makeIcorol cs (i, j) = some x) =
      fun i j x => (⟨i, j, x⟩ : Coriolis) ∈ cs ∨ (⟨j, i, x⟩ : Coriolis) ∈ cs := by
  funext i j x
  refine propext (icorol_iff x fun x y h1 h2 => ?_)
  rcases h1 with h1 | h1 <;> rcases h2 with h2 | h2
  · exact hone _ h1 _ h2 (.inl ⟨rfl, rfl⟩)
  · exact hone _ h1 _ h2 (.inr ⟨rfl, rfl⟩)
  · exact hone _ h1 _ h2 (.inr ⟨rfl, rfl⟩)
  · exact hone _ h1 _ h2 (.inl ⟨rfl, rfl⟩)

/-- C114, vibration-rotation constants: computed with rounded arithmetic, each differs from the formula of perturbation theory for
the same frequencies, moments, rotational and Coriolis constants, inertia derivatives and force constants by at most
`(2 n + 34 + 16 κ) u` times the sum of the sizes of its terms. -/
theorem c114_alpha (hr : Rounds u rnd) (h1 : 1 ≤ κ) (n : Nat) (hs : ((n : ℝ) + 17 + 8 * κ) * u ≤ 1 / 2) (B I w : Vec (Fl rnd))
    (A : Mat (Fl rnd)) (zeta F3 : T3 (Fl rnd)) (cs : List Coriolis) (x : Nat)
    (hone : ∀ c ∈ cs, ∀ c' ∈ cs, (c.i = c'.i ∧ c.j = c'.j ∨ c.i = c'.j ∧ c.j = c'.i) → c.axis = c'.axis)
    (hw : ∀ j < n, 0 < (w j).val)
    (ap : SquaresApart κ n (fun i j x => (⟨i, j, x⟩ : Coriolis) ∈ cs ∨ (⟨j, i, x⟩ : Coriolis) ∈ cs) (fun i => (w i).val) x) :
    let R := fun i j x => (⟨i, j, x⟩ : Coriolis) ∈ cs ∨ (⟨j, i, x⟩ : Coriolis) ∈ cs
    let A' := fun k p q => (A k (pairIdx p q)).val
    ∀ i < n, |(alpha n B I w A zeta F3 cs i x).val - alphaSpec R n (fun a => (B a).val) (fun a => (I a).val) (fun a => (w a).val) A'
        (fun a b k => (zeta a b k).val) (fun a b k => (F3 a b k).val) i x| ≤
      (2 * n + 34 + 16 * κ) * u * alphaSize R n (fun a => (B a).val) (fun a => (I a).val) (fun a => (w a).val) A'
        (fun a b k => (zeta a b k).val) (fun a b k => (F3 a b k).val) i x := by
  intro R A' i hi
  obtain ⟨g1, g2⟩ := c107_growth hr.1 h1 (n + 17) 1 le_rfl (by push_cast; linarith)
  have e : (fun i j x => makeIcorol cs (i, j) = some x) = R := icorol_eq hone
  have h := acc_alpha ⟨hr, h1, g1⟩ n B I w A zeta F3 cs i x hi hw fun j hj hij hn => ap i j hi hj hij (by
    have := congrFun (congrFun (congrFun e i) j) x
    exact fun hR => hn (Eq.mpr this hR))
  rw [alpha_exact, e] at h
  refine h.1.trans (mul_le_mul_of_nonneg_right (g2.trans (le_of_eq ?_)) ((abs_nonneg _).trans h.2))
  push_cast
  ring

/-- The sum over the modes for one state, in rounded arithmetic. -/
theorem acc_alphaa (c : RoundCtx u κ rnd) (n axis : Nat) (al : Mat (Fl rnd)) (f T : Nat → ℝ) (v : List Nat) (hv : v.length = n)
    (h : ∀ i < n, Acc u κ (n + 17) 1 (f i) (al i axis) (T i)) (m : Nat) (hm : m ≤ n) :
    ∃ r, (List.range m).foldlM (alphaaStep al ((List.range n).map Mode.i1) (.i1st v) axis) (Arith.lit 0 : Fl rnd) = some r ∧
      Acc u κ (n + 20 + m) 1 (∑ k ∈ range m, f k * ((v.getD k 0 : ℕ) + 1 / 2)) r (∑ k ∈ range m, T k * ((v.getD k 0 : ℕ) + 1 / 2)) := by
  induction m with
  | zero =>
    refine ⟨_, rfl, ?_⟩
    have := acc_mono c (acc_lit c 0 0 (by simp)) (show 1 ≤ n + 20 + 0 by omega) (Nat.zero_le 1) le_rfl
    simpa [lit_real] using this
  | succ m ih =>
    obtain ⟨r, e, hr⟩ := ih (by omega)
    have h1 : ((List.range n).map Mode.i1)[m]? = some (.i1 m) := by simp [show m < n by omega]
    have h2 : v[m]? = some (v.getD m 0) := by
      rw [List.getD_eq_getElem?_getD, List.getElem?_eq_getElem (by omega)]; rfl
    refine ⟨r + al m axis * (ofNat (v.getD m 0) + Arith.lit 0.5), ?_, ?_⟩
    · rw [List.range_succ, List.foldlM_append, e, Option.bind_eq_bind, Option.bind_some, List.foldlM_cons, alphaaStep, h1]
      simp only [h2, Option.map_some, Option.bind_eq_bind, Option.bind_some, List.foldlM_nil, Option.pure_def]
    · rw [sum_range_succ, sum_range_succ]
      have q := acc_add c (e := 2) (d := 0) (acc_lit c (v.getD m 0 : ℚ) (v.getD m 0 : ℕ) (by simp))
        (acc_lit c 0.5 (1 / 2) (by norm_num [abs_of_pos])) (by omega) (by omega) le_rfl le_rfl
      have p := acc_mul c (e := n + 20) (d := 1) (h m (by omega)) q (by omega) (by omega)
      have s := acc_add c (e := n + 20 + (m + 1)) (d := 1) hr p (by omega) (by omega) le_rfl le_rfl
      have e5 : (Arith.lit (v.getD m 0 : ℚ) + Arith.lit 0.5 : ℝ) = (v.getD m 0 : ℕ) + 1 / 2 := by
        rw [lit_real, lit_real]; norm_num
      rw [e5] at s
      exact s

/-- C114, averaged rotational constants: for the state with `v k` quanta in mode `k`, the constant computed with rounded arithmetic
differs from `B + Σ α_k (v_k + ½)` by at most `(4 n + 42 + 16 κ) u` times the sum of the sizes of the terms. -/
theorem c114_averaged (hr : Rounds u rnd) (h1 : 1 ≤ κ) (n : Nat) (hs : (2 * (n : ℝ) + 21 + 8 * κ) * u ≤ 1 / 2)
    (B I w : Vec (Fl rnd)) (A : Mat (Fl rnd)) (zeta F3 : T3 (Fl rnd)) (cs : List Coriolis) (x : Nat)
    (hone : ∀ c ∈ cs, ∀ c' ∈ cs, (c.i = c'.i ∧ c.j = c'.j ∨ c.i = c'.j ∧ c.j = c'.i) → c.axis = c'.axis)
    (hw : ∀ j < n, 0 < (w j).val)
    (ap : SquaresApart κ n (fun i j x => (⟨i, j, x⟩ : Coriolis) ∈ cs ∨ (⟨j, i, x⟩ : Coriolis) ∈ cs) (fun i => (w i).val) x)
    (states : List State) (k : Nat) (v : List Nat) (hk : states[k]? = some (.i1st v)) (hv : v.length = n) :
    let R := fun i j x => (⟨i, j, x⟩ : Coriolis) ∈ cs ∨ (⟨j, i, x⟩ : Coriolis) ∈ cs
    let A' := fun k p q => (A k (pairIdx p q)).val
    ∃ r, alphaaEntry B (alpha n B I w A zeta F3 cs) ((List.range n).map Mode.i1) states k x = some r ∧
      |r.val - ((B x).val + ∑ i ∈ range n, alphaSpec R n (fun a => (B a).val) (fun a => (I a).val) (fun a => (w a).val) A'
        (fun a b k => (zeta a b k).val) (fun a b k => (F3 a b k).val) i x * ((v.getD i 0 : ℕ) + 1 / 2))| ≤
      (4 * n + 42 + 16 * κ) * u * (|(B x).val| + ∑ i ∈ range n, alphaSize R n (fun a => (B a).val) (fun a => (I a).val)
        (fun a => (w a).val) A' (fun a b k => (zeta a b k).val) (fun a b k => (F3 a b k).val) i x * ((v.getD i 0 : ℕ) + 1 / 2)) := by
  intro R A'
  obtain ⟨g1, g2⟩ := c107_growth hr.1 h1 (2 * n + 21) 1 le_rfl (by push_cast; linarith)
  have c : RoundCtx u κ rnd := ⟨hr, h1, g1⟩
  have e : (fun i j x => makeIcorol cs (i, j) = some x) = R := icorol_eq hone
  have h := fun i (hi : i < n) => acc_alpha c n B I w A zeta F3 cs i x hi hw fun j hj hij hn => ap i j hi hj hij (by
    have := congrFun (congrFun (congrFun e i) j) x
    exact fun hR => hn (Eq.mpr this hR))
  simp only [alpha_exact, e] at h
  obtain ⟨s, hs1, hs2⟩ := acc_alphaa c n x (alpha n B I w A zeta F3 cs) _ _ v hv h n le_rfl
  refine ⟨B x + s, ?_, ?_⟩
  · have cnt : (Mode.count ((List.range n).map Mode.i1)).1 = n := by
      have hm : degModes .asymmTop n (fun _ => (0 : ℝ)) = (List.range n).map Mode.i1 := rfl
      rw [c18_count, ← hm, partition_asym .asymmTop rfl]
      simp
    rw [alphaaEntry, hk, Option.bind_some, cnt, hs1]
    rfl
  · have t := acc_add c (e := 2 * n + 21) (d := 1) (acc_exact c (B x) _ _ rfl rfl) hs2 (by omega) (by omega) (by omega) le_rfl
    refine t.1.trans (mul_le_mul_of_nonneg_right (g2.trans (le_of_eq ?_)) ((abs_nonneg _).trans t.2))
    push_cast
    ring

/-- Three modes of which two resonate about the third axis, in arithmetic with 53 binary digits: the hypotheses of C114 hold. -/
example : let w : Vec (Fl (nearest 53)) := fun i => ⟨if i = 0 then 1000 else if i = 1 then 1001 else 2000⟩
    let cs : List Coriolis := [⟨1, 0, 2⟩]
    Rounds (2 ^ (-(53 : ℕ) : ℤ)) (nearest 53) ∧ (2 * ((3 : ℕ) : ℝ) + 21 + 8 * 2) * 2 ^ (-(53 : ℕ) : ℤ) ≤ 1 / 2 ∧
    (∀ c ∈ cs, ∀ c' ∈ cs, (c.i = c'.i ∧ c.j = c'.j ∨ c.i = c'.j ∧ c.j = c'.i) → c.axis = c'.axis) ∧ (∀ j < 3, 0 < (w j).val) ∧
    SquaresApart 2 3 (fun i j x => (⟨i, j, x⟩ : Coriolis) ∈ cs ∨ (⟨j, i, x⟩ : Coriolis) ∈ cs) (fun i => (w i).val) 2 ∧
    [State.i1st [0, 0, 0], .i1st [1, 0, 0]][1]? = some (.i1st [1, 0, 0]) := by
  intro w cs
  refine ⟨c107_nearest 53 (by norm_num), by norm_num, by decide, ?_, ?_, rfl⟩
  · intro j hj
    simp only [w]
    split_ifs <;> norm_num
  · intro i j hi hj hij hn
    simp only [w]
    interval_cases i <;> interval_cases j <;> first
      | exact absurd rfl hij
      | exact absurd (by decide) hn
      | norm_num [abs_of_pos, abs_of_neg]

end Verif
