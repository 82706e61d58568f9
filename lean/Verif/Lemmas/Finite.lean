import Verif.Lemmas.Extended
import Verif.Lemmas.Loop

/-! Values with infinities and NaN that are the given real number. -/

namespace Verif

open Ext

/-- `e` is the number `x`. -/
def Is (e : Ext) (x : ℝ) : Prop := e = fin x

namespace Is

theorem fin (x : ℝ) : Is (Ext.fin x) x := rfl
theorem lit (q : ℚ) : Is (Arith.lit q) (Arith.lit q) := rfl
theorem pi : Is Arith.pi Arith.pi := rfl
theorem add {a b : Ext} {x y : ℝ} (h : Is a x) (k : Is b y) : Is (a + b) (x + y) := by
  unfold Is at *; rw [h, k]; rfl
theorem sub {a b : Ext} {x y : ℝ} (h : Is a x) (k : Is b y) : Is (a - b) (x - y) := by
  unfold Is at *; rw [h, k]; exact ext_fin_sub x y
theorem mul {a b : Ext} {x y : ℝ} (h : Is a x) (k : Is b y) : Is (a * b) (x * y) := by
  unfold Is at *; rw [h, k]; rfl
theorem neg {a : Ext} {x : ℝ} (h : Is a x) : Is (-a) (-x) := by
  unfold Is at *; rw [h]; rfl
theorem div {a b : Ext} {x y : ℝ} (h : Is a x) (k : Is b y) (hy : y ≠ 0) : Is (a / b) (x / y) := by
  unfold Is at *; rw [h, k]; exact ext_fin_div x hy
theorem divLit {a : Ext} {x : ℝ} {q : ℚ} (h : Is a x) (hy : q ≠ 0) : Is (a / Arith.lit q) (x / Arith.lit q) :=
  div h (lit q) (by rw [lit_real]; exact_mod_cast hy)
theorem sq {a : Ext} {x : ℝ} (h : Is a x) : Is (Verif.sq a) (Verif.sq x) := mul h h
theorem sqrt {a : Ext} {x : ℝ} (h : Is a x) (hx : 0 ≤ x) : Is (Arith.sqrt a) (Arith.sqrt x) := by
  unfold Is at *; rw [h]; exact if_neg (not_lt.2 hx)
theorem powf15 {a : Ext} {x : ℝ} (h : Is a x) (hx : 0 ≤ x) : Is (Arith.powf15 a) (Arith.powf15 x) := by
  unfold Is at *; rw [h]; exact if_neg (not_lt.2 hx)
theorem abs {a : Ext} {x : ℝ} (h : Is a x) : Is (Arith.abs a) (Arith.abs x) := by
  unfold Is at *; rw [h]; rfl
theorem ofNat (n : Nat) : Is (Verif.ofNat n) (Verif.ofNat n) := rfl
theorem lt {a b : Ext} {x y : ℝ} (h : Is a x) (k : Is b y) : Arith.lt a b = Arith.lt x y := by
  unfold Is at *; rw [h, k]; rfl
theorem le {a b : Ext} {x y : ℝ} (h : Is a x) (k : Is b y) : Arith.le a b = Arith.le x y := by
  unfold Is at *; rw [h, k]; rfl
theorem ite {p : Prop} [Decidable p] {a b : Ext} {x y : ℝ} (h : p → Is a x) (k : ¬p → Is b y) :
    Is (if p then a else b) (if p then x else y) := by
  by_cases hp : p
  · rw [if_pos hp, if_pos hp]; exact h hp
  · rw [if_neg hp, if_neg hp]; exact k hp
theorem foldl {β : Type} {F : Ext → β → Ext} {G : ℝ → β → ℝ} {l : List β}
    (h : ∀ b ∈ l, ∀ s t, Is s t → Is (F s b) (G t b)) {s : Ext} {t : ℝ} (hs : Is s t) :
    Is (l.foldl F s) (l.foldl G t) := by
  induction l generalizing s t with
  | nil => exact hs
  | cons b l ih =>
    exact ih (fun c hc => h c (List.mem_cons_of_mem _ hc)) (h b List.mem_cons_self s t hs)
theorem sumL {β : Type} {l : List β} {f : β → Ext} {g : β → ℝ} (h : ∀ b ∈ l, Is (f b) (g b)) :
    Is (Verif.sumL l f) (Verif.sumL l g) :=
  foldl (fun b hb _ _ hs => add hs (h b hb)) (lit 0)
theorem sumTo {n : Nat} {f : Nat → Ext} {g : Nat → ℝ} (h : ∀ i < n, Is (f i) (g i)) :
    Is (Verif.sumTo n f) (Verif.sumTo n g) :=
  foldl (fun b hb _ _ hs => add hs (h b (List.mem_range.1 hb))) (lit 0)

/-- The same for whole arrays, one entry at a time. -/
theorem matSet {m : Mat Ext} {n : Mat ℝ} (h : ∀ i j, Is (m i j) (n i j)) (a b : Nat) {v : Ext} {x : ℝ} (hv : Is v x)
    (i j : Nat) : Is (Mat.set m a b v i j) (Mat.set n a b x i j) := by
  unfold Mat.set; exact ite (fun _ => hv) fun _ => h i j
theorem matFold {β : Type} {F : Mat Ext → β → Mat Ext} {G : Mat ℝ → β → Mat ℝ} {l : List β}
    (h : ∀ b ∈ l, ∀ m n, (∀ i j, Is (m i j) (n i j)) → ∀ i j, Is (F m b i j) (G n b i j)) {m : Mat Ext} {n : Mat ℝ}
    (hs : ∀ i j, Is (m i j) (n i j)) : ∀ i j, Is (l.foldl F m i j) (l.foldl G n i j) := by
  induction l generalizing m n with
  | nil => exact hs
  | cons b l ih =>
    exact ih (fun c hc => h c (List.mem_cons_of_mem _ hc)) (h b List.mem_cons_self m n hs)

end Is

/-- Applies the rules for the operations as far as they go; what is left are the loops, the case distinctions and that the
denominators are not zero. -/
macro "is_fin" "[" hs:term,* "]" : tactic => do
  let alts ← hs.getElems.mapM fun h => `(tacticSeq| with_reducible apply $h)
  `(tactic| repeat' first
    | with_reducible exact Is.lit _
    | with_reducible exact Is.ofNat _
    | with_reducible exact Is.pi
    | with_reducible assumption
    | with_reducible apply Is.add
    | with_reducible apply Is.sub
    | with_reducible apply Is.mul
    | with_reducible apply Is.neg
    | (with_reducible apply Is.divLit; rotate_left; exact (by norm_num))
    | with_reducible apply Is.div
    | with_reducible apply Is.sq
    | with_reducible apply Is.abs
    $[| $alts]*)

end Verif
