import Verif.Model.Fermi
import Verif.Model.Geom

/-!
# Resonance polyads (/repo/spectro/src/polyads.rs)
-/

namespace Verif

variable {α : Type} [Arith α]

/-- `init_res_denom`, /repo/spectro/src/polyads.rs:562-587: all entries are filled (567-573), then the entries
of the listed resonances are set to zero. Indices stay below `n1dm`. -/
def initResDenom (freq : Vec α) (fermi1 : List Fermi1) (fermi2 : List Fermi2) : T3 α :=
  let dnom : T3 α := fun i j k => Arith.lit 1.0 / (freq i - freq j - freq k)
  let dnom := fermi1.foldl (fun d f => T3.set d f.j f.i f.i (Arith.lit 0.0)) dnom
  fermi2.foldl (fun d f =>
    let j := f.i
    let k := f.j
    let i := f.k
    T3.set (T3.set d i j k (Arith.lit 0.0)) i k j (Arith.lit 0.0)) dnom

/-- `Sign`, /repo/spectro/src/polyads.rs:507-510. -/
inductive SignIdx where
  | plus (n : Nat)
  | minus (n : Nat)
  deriving DecidableEq, Repr

/-- `Sign::abs`, /repo/spectro/src/polyads.rs:513-517. -/
def SignIdx.idx : SignIdx → Nat
  | plus n => n
  | minus n => n

/-- `Sign::signum`, /repo/spectro/src/polyads.rs:519-524. -/
def SignIdx.signum : SignIdx → Int
  | plus _ => 1
  | minus _ => -1

/-- `n as f64` for a signed `n`, /repo/spectro/src/polyads.rs:549-556. -/
def ofInt (n : Int) : α := Arith.lit (n : ℚ)

/-- `Denom::denom`, /repo/spectro/src/polyads.rs:533-558. Rust's integer division truncates; the dividend is
never negative, so it is the division of natural-number-valued integers. -/
def denom (freq : Vec α) (dnm : T3 α) (is js ks : SignIdx) : α :=
  let i := is.idx
  let j := js.idx
  let k := ks.idx
  let isign := is.signum
  let jsign := js.signum
  let ksign := ks.signum
  let iglobsgn := isign * jsign * ksign
  let inneg := (3 - isign - jsign - ksign) / 2
  let isign := isign * iglobsgn
  let jsign := jsign * iglobsgn
  if inneg = 0 ∨ inneg = 3 then
    Arith.lit 1.0 / (freq i + freq j + freq k) * ofInt iglobsgn
  else if isign > 0 then dnm i j k * ofInt iglobsgn
  else if jsign > 0 then dnm j i k * ofInt iglobsgn
  else dnm k i j * ofInt iglobsgn

open SignIdx in
/-- The case `aabb` of `res2a`, /repo/spectro/src/polyads.rs:360-395. -/
def res2aAabb (i1mode : List Nat) (freq rotcon : Vec α) (zmat f3 : T3 α) (f4 : T4 α) (dnm : T3 α)
    (i j : Nat) : α :=
  let d := denom freq dnm
  let half := Arith.lit (α := α) 0.5
  let val1 := f4 i i j j / Arith.lit 4.0
  let val2 := rotcon 0 * zmat i j 0 * zmat i j 0 + rotcon 1 * zmat i j 1 * zmat i j 1
    + rotcon 2 * zmat i j 2 * zmat i j 2
  let val2 := (-val2) * sq (freq i + freq j) / (freq i * freq j)
  let val3 := sumL i1mode fun k =>
    f3 i i k * f3 j j k * Arith.lit 0.125 *
      (d (minus i) (minus i) (minus k) + d (plus i) (plus i) (minus k) + d (minus j) (minus j) (minus k)
        + d (plus j) (plus j) (minus k)) * half
  let val4 := sumL i1mode fun k =>
    Arith.lit (-0.5) * sq (f3 i j k) *
      (d (plus i) (minus j) (minus k) + d (minus i) (plus j) (minus k)) * Arith.lit (-0.5)
  val1 + val2 + val3 + val4

open SignIdx in
/-- The case `aaab` of `res2a`, /repo/spectro/src/polyads.rs:396-424 (`val2` stays 0;
the two accumulators share one loop in the code and do not interact). -/
def res2aAaab (i1mode : List Nat) (freq : Vec α) (f3 : T3 α) (f4 : T4 α) (dnm : T3 α) (i j : Nat) : α :=
  let d := denom freq dnm
  let half := Arith.lit (α := α) (-0.5)
  let val1 := f4 i i i j / Arith.lit 2.0
  let val2 := Arith.lit 0.0
  let val3 := i1mode.foldl (fun v k =>
    let temp := half * (Arith.lit (-4.0) / freq k + d (plus i) (plus i) (minus k)
      + d (minus i) (minus i) (minus k))
    v - Arith.lit 0.25 * f3 i i k * f3 i j k * temp) (Arith.lit 0.0)
  let val4 := i1mode.foldl (fun v k =>
    let temp := half * (Arith.lit 2.0 * (d (plus i) (minus j) (minus k) + d (minus i) (plus j) (minus k))
      + d (plus i) (plus j) (minus k) + d (minus i) (minus j) (minus k))
    v - Arith.lit 0.25 * f3 i i k * f3 i j k * temp) (Arith.lit 0.0)
  val1 + val2 + val3 + val4

open SignIdx in
/-- The case `acbc` of `res2a`, /repo/spectro/src/polyads.rs:425-462; `k` is the repeated mode. -/
def res2aAcbc (i1mode : List Nat) (freq rotcon : Vec α) (zmat f3 : T3 α) (f4 : T4 α) (dnm : T3 α)
    (i k j : Nat) : α :=
  let d := denom freq dnm
  let val1 := f4 i k j k / Arith.lit 2.0
  let val2 := rotcon 0 * zmat i k 0 * zmat j k 0 + rotcon 1 * zmat i k 1 * zmat j k 1
    + rotcon 2 * zmat i k 2 * zmat j k 2
  let val2 := Arith.lit 2.0 * val2 * (freq i * freq j + sq (freq k)) / (freq k * Arith.sqrt (freq i * freq j))
  let val3 := i1mode.foldl (fun v l =>
    let temp := Arith.lit 1.0 / freq l
      - Arith.lit 0.5 * (d (plus i) (minus j) (minus l) + d (minus i) (plus j) (minus l))
    v - Arith.lit 0.25 * f3 i j l * f3 k k l * temp) (Arith.lit 0.0)
  let val4 := i1mode.foldl (fun v l =>
    let temp := Arith.lit (-0.25) *
      ((d (plus i) (plus k) (minus l) + d (plus i) (minus k) (minus l) + d (minus i) (plus k) (minus l)
        + d (minus i) (minus k) (minus l))
      + (d (plus j) (plus k) (minus l) + d (plus j) (minus k) (minus l) + d (minus j) (plus k) (minus l)
        + d (minus j) (minus k) (minus l)))
    v - Arith.lit 0.5 * f3 i k l * f3 j k l * temp) (Arith.lit 0.0)
  val1 + val2 + val3 + val4

open SignIdx in
/-- The case `aabc` of `res2a`, /repo/spectro/src/polyads.rs:463-499. -/
def res2aAabc (i1mode : List Nat) (freq rotcon : Vec α) (zmat f3 : T3 α) (f4 : T4 α) (dnm : T3 α)
    (i j k : Nat) : α :=
  let d := denom freq dnm
  let val1 := Arith.lit 0.5 * f4 i i j k
  let val2 := rotcon 0 * zmat i j 0 * zmat i k 0 + rotcon 1 * zmat i j 1 * zmat i k 1
    + rotcon 2 * zmat i j 2 * zmat i k 2
  let val2 := Arith.lit (-2.0) * val2 * (freq i + freq j) * (freq i + freq k)
    / (freq i * Arith.sqrt (freq j * freq k))
  let val3 := i1mode.foldl (fun v l =>
    let temp1 := Arith.lit (-0.5) * (d (plus j) (plus k) (minus l) + d (minus j) (minus k) (minus l))
    let temp2 := Arith.lit (-0.5) * (d (plus i) (plus i) (minus l) + d (minus i) (minus i) (minus l))
    v - f3 i i l * f3 j k l * (temp1 + temp2) * Arith.lit 0.25) (Arith.lit 0.0)
  let val4 := i1mode.foldl (fun v l =>
    let temp := Arith.lit (-0.5) *
      ((d (plus i) (minus k) (minus l) + d (minus i) (plus k) (minus l))
      + (d (plus i) (minus j) (minus l) + d (minus i) (plus j) (minus l)))
    v - Arith.lit 0.5 * f3 i j l * f3 i k l * temp) (Arith.lit 0.0)
  val1 + val2 + val3 + val4

/-- Everything `genrsa` and `res2a` take besides states and indices, /repo/spectro/src/polyads.rs:115-127. -/
structure PolyadCtx (α : Type) where
  i1mode : List Nat
  freq : Vec α
  rotcon : Vec α
  zmat : T3 α
  f3 : T3 α
  f4 : T4 α
  dnm : T3 α

/-- `res2a`, /repo/spectro/src/polyads.rs:341-505; `i1mode[ii]` past the end panics (`none`), as does the
unimplemented case 5 (500-504). The branches not taken are not evaluated. -/
def res2a (t : PolyadCtx α) (ii jj kk ll : Nat) : Option α :=
  if ii = jj ∧ kk = ll then do
    let i ← t.i1mode[ii]?
    let j ← t.i1mode[kk]?
    return res2aAabb t.i1mode t.freq t.rotcon t.zmat t.f3 t.f4 t.dnm i j
  else if ii = jj ∧ ii = kk then do
    let i ← t.i1mode[ii]?
    let j ← t.i1mode[ll]?
    return res2aAaab t.i1mode t.freq t.f3 t.f4 t.dnm i j
  else if jj = ll ∧ ii ≠ kk ∧ ii ≠ jj then do
    let i ← t.i1mode[ii]?
    let k ← t.i1mode[jj]?
    let j ← t.i1mode[kk]?
    return res2aAcbc t.i1mode t.freq t.rotcon t.zmat t.f3 t.f4 t.dnm i k j
  else if ii = jj ∧ ii ≠ kk ∧ kk ≠ ll then do
    let i ← t.i1mode[ii]?
    let j ← t.i1mode[kk]?
    let k ← t.i1mode[ll]?
    return res2aAabc t.i1mode t.freq t.rotcon t.zmat t.f3 t.f4 t.dnm i j k
  else none

/-- One differing mode, the entries pushed at /repo/spectro/src/polyads.rs:149-153. -/
structure Diff where
  ndiff : Int
  nmin : Nat
  indx : Nat
  deriving DecidableEq, Repr

/-- The loop that collects the differing modes, /repo/spectro/src/polyads.rs:136-155, as the list of differences
and the counters `ndelta` and `ndel`; `none` is the early return at 144-148. -/
def collectDiffs (n1dm : Nat) (nl nr : Nat → Nat) : Option (List Diff × Nat × Int) :=
  (List.range n1dm).foldlM (fun (st : List Diff × Nat × Int) i =>
    let ndiffer : Int := (nr i : Int) - (nl i : Int)
    if ndiffer ≠ 0 then
      let ndelta := st.2.1 + ndiffer.natAbs
      let ndel := st.2.2 + ndiffer
      let idiff := st.1.length + 1
      if idiff > 4 ∨ ndelta > 4 then none
      else some (st.1 ++ [⟨ndiffer, min (nl i) (nr i), i⟩], ndelta, ndel)
    else some st) ([], 0, 0)

/-- The swaps of case 2a, /repo/spectro/src/polyads.rs:189-198: `nmin` and `indx` are swapped, `ndiff` is
not. -/
def sortAabc (nd : List Int) (l : List (Nat × Nat)) : List (Nat × Nat) :=
  (List.range 3).foldl (fun l i =>
    if (nd.getD i 0).natAbs = 2 then
      let swp := l.getD 0 (0, 0)
      (l.set 0 (l.getD i (0, 0))).set i swp
    else l) l

/-- `x == 0.` for the cubic cases, /repo/spectro/src/polyads.rs:226-228, 276, 286. -/
def isZero (x : α) : Bool := feq x (Arith.lit 0.0)

/-- Case 4 of `genrsa`, /repo/spectro/src/polyads.rs:293-329. The consistency check at 314-316 cannot fire
(the modes other than `ii`, `jj` do not differ); it is kept as `none`. -/
def genrsaOneOne (t : PolyadCtx α) (n1dm : Nat) (nl nr : Nat → Nat) (ii jj na nb : Nat) : Option α := do
  let v1 ← res2a t ii ii ii jj
  let val1 := v1 * Arith.sqrt (ofNat ((na + 1) ^ 3 * (nb + 1)) / Arith.lit 16.0)
  let v2 ← res2a t jj jj jj ii
  let val2 := v2 * Arith.sqrt (ofNat ((nb + 1) ^ 3 * (na + 1)) / Arith.lit 16.0)
  let val3 ← (List.range n1dm).foldlM (fun val3 k =>
    if k ≠ ii ∧ k ≠ jj then
      if nl k ≠ nr k then none
      else do
        let r ← res2a t ii k jj k
        return val3 + Arith.lit 2.0 * r *
          Arith.sqrt (ofNat ((na + 1) * (nb + 1)) * sq (ofNat (nl k) + Arith.lit 0.5) / Arith.lit 16.0)
    else some val3) (Arith.lit 0.0)
  return val1 + val2 + val3

/-- The selection after the loop of `genrsa`, /repo/spectro/src/polyads.rs:157-333; every `todo!` is `none`. -/
def genrsaCase (t : PolyadCtx α) (n1dm : Nat) (nl nr : Nat → Nat) (ds : List Diff) (ndelta : Nat) (ndel : Int) :
    Option α :=
  match ds with
  | [a, b, c, d] =>
    if ndel = 0 then do
      let r ← res2a t a.indx b.indx c.indx d.indx
      return r * Arith.sqrt (ofNat ((a.nmin + 1) * (b.nmin + 1) * (c.nmin + 1) * (d.nmin + 1))
        / Arith.lit 16.0)
    else none
  | [a, b, c] =>
    if ndelta = 4 then
      if ndel = 0 then
        match sortAabc [a.ndiff, b.ndiff, c.ndiff] [(a.nmin, a.indx), (b.nmin, b.indx), (c.nmin, c.indx)] with
        | [(na, ii), (nb, jj), (nc, kk)] => do
          let r ← res2a t ii ii jj kk
          return r * Arith.sqrt (ofNat ((na + 1) * (na + 2) * (nb + 1) * (nc + 1)) / Arith.lit 16.0)
        | _ => none
      else none
    else if ndelta = 3 then
      if isZero (t.dnm a.indx b.indx c.indx) || isZero (t.dnm b.indx c.indx a.indx)
          || isZero (t.dnm c.indx a.indx b.indx) then
        some (t.f3 a.indx b.indx c.indx *
          Arith.sqrt (ofNat ((a.nmin + 1) * (b.nmin + 1) * (c.nmin + 1)) / Arith.lit 8.0))
      else some (Arith.lit 0.0)
    else none
  | [a, b] =>
    if ndelta = 4 then
      if ndel = 0 then do
        let r ← res2a t a.indx a.indx b.indx b.indx
        return r * Arith.sqrt (ofNat ((a.nmin + 1) * (a.nmin + 2) * (b.nmin + 1) * (b.nmin + 2))
          / Arith.lit 16.0)
      else none
    else if ndelta = 3 then
      if a.ndiff.natAbs = 2 then
        if isZero (t.dnm b.indx a.indx a.indx) then
          some (Arith.lit 0.5 * t.f3 a.indx a.indx b.indx *
            Arith.sqrt (ofNat ((a.nmin + 1) * (a.nmin + 2) * (b.nmin + 1)) / Arith.lit 8.0))
        else some (Arith.lit 0.0)
      else if isZero (t.dnm a.indx b.indx b.indx) then
        some (Arith.lit 0.5 * t.f3 a.indx b.indx b.indx *
          Arith.sqrt (ofNat ((b.nmin + 1) * (b.nmin + 2) * (a.nmin + 1)) / Arith.lit 8.0))
      else some (Arith.lit 0.0)
    else if ndelta = 2 then genrsaOneOne t n1dm nl nr a.indx b.indx a.nmin b.nmin
    else some (Arith.lit 0.0)
  | _ => some (Arith.lit 0.0)

/-- `genrsa`, /repo/spectro/src/polyads.rs:115-334, between the states with quanta `nl` (column `istate` of
`iirst`) and `nr` (column `jstate`). -/
def genrsa (t : PolyadCtx α) (n1dm : Nat) (nl nr : Nat → Nat) : Option α :=
  match collectDiffs n1dm nl nr with
  | none => some (Arith.lit 0.0)
  | some (ds, ndelta, ndel) => genrsaCase t n1dm nl nr ds ndelta ndel

/-- The polyad states written into `resona`, /repo/spectro/src/polyads.rs:50-58 (one row per state; the code
transposes the matrix afterwards). -/
def iirstTable : List (List Nat) :=
  [[0, 0, 1, 0, 0, 0, 0, 0, 0, 0, 0, 0],
   [0, 0, 0, 0, 1, 0, 0, 0, 0, 0, 0, 0],
   [0, 0, 0, 1, 0, 0, 0, 0, 0, 0, 0, 0],
   [0, 0, 0, 0, 1, 1, 0, 0, 0, 0, 0, 0],
   [0, 0, 0, 0, 1, 0, 1, 0, 0, 0, 0, 0],
   [0, 0, 0, 0, 2, 0, 0, 0, 0, 0, 0, 0],
   [0, 0, 0, 0, 0, 0, 0, 0, 0, 0, 0, 2]]

/-- The zero-point energy in `resona`, /repo/spectro/src/polyads.rs:34-42. -/
def resonaZpe (i1mode : List Nat) (freq : Vec α) (xcnst : Mat α) (e0 : α) : α :=
  (List.range i1mode.length).foldl (fun zpe ii =>
    let i := i1mode.getD ii 0
    (List.range (ii + 1)).foldl (fun zpe jj => zpe + xcnst i (i1mode.getD jj 0) * Arith.lit 0.25)
      (zpe + freq i * Arith.lit 0.5)) e0

/-- The energy of one deperturbed state in `resona`, /repo/spectro/src/polyads.rs:65-77. -/
def resonaEnergy (i1mode : List Nat) (freq : Vec α) (xcnst : Mat α) (e0 : α) (n : Nat → Nat) : α :=
  let e := (List.range i1mode.length).foldl (fun e ii =>
    let i := i1mode.getD ii 0
    (List.range (ii + 1)).foldl (fun e jj =>
        e + xcnst i (i1mode.getD jj 0) * (ofNat (n ii) + Arith.lit 0.5) * (ofNat (n jj) + Arith.lit 0.5))
      (e + freq i * (ofNat (n ii) + Arith.lit 0.5))) e0
  e - resonaZpe i1mode freq xcnst e0

/-- `resona`, /repo/spectro/src/polyads.rs:17-110, as the returned matrix; the table of states is a parameter
(the code uses `iirstTable`). `none` is a panic: a state shorter than the number of modes, an energy list shorter than the
number of states, or an unimplemented coupling. The energies written to `eng` are the diagonal; the printing
and the eigenvalues, which are only printed, are left out. -/
def resona (iirst : List (List Nat)) (engLen : Nat) (i1mode : List Nat) (freq rotcon : Vec α) (zmat f3 : T3 α)
    (f4 : T4 α) (xcnst : Mat α) (e0 : α) (fermi1 : List Fermi1) (fermi2 : List Fermi2) : Option (Mat α) :=
  let n1dm := i1mode.length
  let dnm := initResDenom freq fermi1 fermi2
  let t : PolyadCtx α := ⟨i1mode, freq, rotcon, zmat, f3, f4, dnm⟩
  if iirst.any (fun r => r.length < n1dm) ∨ engLen < iirst.length then none
  else
    let st := fun s ii => (iirst.getD s []).getD ii 0
    ((List.range iirst.length).flatMap fun i => (List.range (i + 1)).map fun j => (i, j)).foldlM
      (fun (m : Mat α) p =>
        if p.2 = p.1 then some (m.set p.1 p.2 (resonaEnergy i1mode freq xcnst e0 (st p.1)))
        else do
          let g ← genrsa t n1dm (st p.1) (st p.2)
          return m.set p.1 p.2 g) (fun _ _ => Arith.lit 0.0)

/-- `HashSet::insert`, used at /repo/spectro/src/polyads.rs:602, 606, 613, 617: the set is kept as a list without
repetition. -/
def insertRow (s : List (List Nat)) (r : List Nat) : List (List Nat) := if r ∈ s then s else s ++ [r]

/-- A state written into a zero vector, /repo/spectro/src/polyads.rs:600-601, 604-605, 610-612, 615-616; an index
past the end panics. -/
def stateRow (n : Nat) (w : List (Nat × Nat)) : Option (List Nat) :=
  w.foldlM (fun r p => if p.1 < n then some (r.set p.1 p.2) else none) (List.replicate n 0)

/-- `make_resin`, /repo/spectro/src/polyads.rs:592-621, as the number of rows and the matrix. `order` is the
unspecified order in which the hash set is walked. `none` is a panic: an index out of range or, with no modes,
the division by zero. -/
def makeResin (order : List (List Nat) → List (List Nat)) (fermi1 : List Fermi1) (n1dm : Nat)
    (fermi2 : List Fermi2) : Option (Nat × (Nat → Nat → Nat)) := do
  let data ← fermi1.foldlM (fun s f => do
    let a ← stateRow n1dm [(f.i, 2)]
    let b ← stateRow n1dm [(f.j, 1)]
    return insertRow (insertRow s a) b) []
  let data ← fermi2.foldlM (fun s f => do
    let a ← stateRow n1dm [(f.i, 1), (f.j, 1)]
    let b ← stateRow n1dm [(f.k, 1)]
    return insertRow (insertRow s a) b) data
  let flat := (order data).flatten
  if n1dm = 0 then none
  else return (flat.length / n1dm, fun r c => flat.getD (r * n1dm + c) 0)

end Verif
