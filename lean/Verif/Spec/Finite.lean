import Verif.Extended
import Verif.Model.Run

/-!
# The same run with infinities and NaN

What it means that a run with the rules of IEEE 754 for infinities and NaN gives the same numbers as the run with real
numbers. No counterpart in /repo.
-/

namespace Verif

open Ext

/-- All constants are the given numbers. -/
def Quartic.toExt (q : Quartic ℝ) : Quartic Ext where
  sigma := fin q.sigma
  rkappa := fin q.rkappa
  delj := fin q.delj
  delk := fin q.delk
  deljk := fin q.deljk
  sdelk := fin q.sdelk
  sdelj := fin q.sdelj
  bxa := fin q.bxa
  bya := fin q.bya
  bza := fin q.bza
  djn := fin q.djn
  djkn := fin q.djkn
  dkn := fin q.dkn
  sdjn := fin q.sdjn
  r5 := fin q.r5
  r6 := fin q.r6
  dj := fin q.dj
  djk := fin q.djk
  dk := fin q.dk
  sd1 := fin q.sd1
  sd2 := fin q.sd2
  bxs := fin q.bxs
  bys := fin q.bys
  bzs := fin q.bzs
  djw := fin q.djw
  djkw := fin q.djkw
  dkw := fin q.dkw
  de := fin q.de

/-- All constants are the given numbers. -/
def Sextic.toExt (q : Sextic ℝ) : Sextic Ext where
  phij := fin q.phij
  phijk := fin q.phijk
  phikj := fin q.phikj
  phik := fin q.phik
  sphij := fin q.sphij
  sphijk := fin q.sphijk
  sphik := fin q.sphik
  hj := fin q.hj
  hjk := fin q.hjk
  hkj := fin q.hkj
  hk := fin q.hk
  h1 := fin q.h1
  h2 := fin q.h2
  h3 := fin q.h3
  he := fin q.he

/-- The three constants are the given numbers. -/
def Rot.toExt (r : Rot ℝ) : Rot Ext := ⟨r.state, fin r.a, fin r.b, fin r.c⟩

/-- All results are the given numbers. -/
def Output.toExt {ι : Type} (o : Output ℝ ι) : Output Ext ι where
  harms := o.harms.map fin
  funds := o.funds.map fin
  corrs := o.corrs.map fin
  rots := o.rots.map Rot.toExt
  rotEquil := fun i => fin (o.rotEquil i)
  irreps := o.irreps
  quartic := o.quartic.toExt
  sextic := o.sextic.toExt
  zpt := fin o.zpt
  lxm := o.lxm.map (List.map fin)
  lx := o.lx.map (List.map fin)
  linear := o.linear
  resonances := o.resonances

/-- The molecule, its numbers unchanged. -/
def SpectroIn.toExt (s : SpectroIn ℝ) : SpectroIn Ext where
  header := s.header
  natom := s.natom
  n3n := s.n3n
  nvib := s.nvib
  i2vib := s.i2vib
  rotor := s.rotor
  linear := s.linear
  axes := fun i j => fin (s.axes i j)
  primat := fun i => fin (s.primat i)
  rotcon := fun i => fin (s.rotcon i)
  weights := fun i => fin (s.weights i)
  pos := fun i j => fin (s.pos i j)
  iatom := s.iatom
  axisOrder := s.axisOrder
  buddy := s.buddy

/-- The force constants, unchanged. -/
def Derivative.toExt : Derivative ℝ → Derivative Ext
  | .harmonic f => .harmonic fun i j => fin (f i j)
  | .cubic f g => .cubic (fun i j => fin (f i j)) fun i j k => fin (g i j k)
  | .quartic f g h => .quartic (fun i j => fin (f i j)) (fun i j k => fin (g i j k)) fun i j k l => fin (h i j k l)

/-- Not an infinity and not NaN. -/
def Ext.Number (e : Ext) : Prop := ∃ x, e = fin x

/-- The `n` frequencies are positive, descending and different. Exact Fermi resonances are allowed where the cubic constant
reaches the tolerance for resonances (10) and, for those of type 1, no other mode resonates with the same overtone. -/
structure NoZeroGap (n : Nat) (w : Vec ℝ) (f3 : T3 ℝ) : Prop where
  pos : ∀ i < n, 0 < w i
  desc : ∀ i j, i < j → j < n → w j < w i
  type1 : ∀ k l, k < n → l < n → 2 * w k = w l → 10 ≤ |f3 k k l| ∧
    ∀ l' < n, l' ≠ l → |2 * w k - w l'| ≤ 200 → |f3 k k l'| < 10
  type2 : ∀ i j k, k < j → j < i → i < n → w i + w j = w k → 10 ≤ |f3 i j k|

/-- The eigensolvers and the irrep search do on numbers what those over the real numbers do. -/
structure Oracles.Agree {ι : Type} (o' : Oracles Ext ι) (o : Oracles ℝ ι) : Prop where
  vals : ∀ m : Mat ℝ, (o'.eigen fun i j => fin (m i j)).1 = (o.eigen m).1.map fin
  vecs : ∀ (m : Mat ℝ) (i j : Nat), (o'.eigen fun i j => fin (m i j)).2 i j = fin ((o.eigen m).2 i j)
  vals2 : ∀ p v q : ℝ, (o'.eigen2 (fin p) (fin v) (fin q)).1 = (o.eigen2 p v q).1.map fin
  vecs2 : ∀ (p v q : ℝ) (i j : Nat), (o'.eigen2 (fin p) (fin v) (fin q)).2 i j = fin ((o.eigen2 p v q).2 i j)
  fuel : o'.fuel = o.fuel
  irrepOf : ∀ (v : Vec ℝ) (e : ℝ), o'.irrepOf (fun i => fin (v i)) (fin e) = o.irrepOf v e
  irrepA : o'.irrepA = o.irrepA

end Verif
