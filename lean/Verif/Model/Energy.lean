import Verif.Model.Fermi
import Verif.Model.Normal

/-!
# Vibrational energies (/repo/spectro/src/enrgy.rs, utils.rs:354-414, run.rs:274-305)
-/

namespace Verif

variable {α : Type} [Arith α]

/-- The index pairs `ii`, `jj ≤ ii` of the double loops at /repo/spectro/src/enrgy.rs:126-134, 152-160,
163-171 (`take(ii + 1)`). -/
def leqPairs (n : Nat) : List (Nat × Nat) :=
  (List.range n).flatMap fun ii => (List.range (ii + 1)).map fun jj => (ii, jj)

/-- `val6`, /repo/spectro/src/enrgy.rs:162-171: the `expect` panics (`none`) if there are degenerate modes and
no g constants. -/
def engVal6 (i2mode : List (Nat × Nat)) (gcnst : Option (Mat α)) (v2 : List (Nat × Nat)) : Option α :=
  if i2mode.length = 0 then some (Arith.lit 0.0)
  else gcnst.map fun g => sumL (leqPairs i2mode.length) fun p =>
    g (i2mode.getD p.1 (0, 0)).1 (i2mode.getD p.2 (0, 0)).1 * ofNat (v2.getD p.1 (0, 0)).2
      * ofNat (v2.getD p.2 (0, 0)).2

/-- The value stored in `eng[nst]`, /repo/spectro/src/enrgy.rs:120-173, for a state with the quanta `v1` and
`v2` (`i1sts[nst]`, `i2sts[nst]`). Indexing them past the end panics (`none`); all positions below `n1dm`
and `n2dm` are read. -/
def stateEnergy (i1mode : List Nat) (i2mode : List (Nat × Nat)) (freq : Vec α) (xcnst : Mat α)
    (gcnst : Option (Mat α)) (e0 : α) (v1 : List Nat) (v2 : List (Nat × Nat)) : Option α :=
  let n1dm := i1mode.length
  let n2dm := i2mode.length
  let half := Arith.lit (α := α) 0.5
  let one := Arith.lit (α := α) 1.0
  if n1dm ≤ v1.length ∧ n2dm ≤ v2.length then
    let val1 := sumTo n1dm fun ii => freq (i1mode.getD ii 0) * (ofNat (v1.getD ii 0) + half)
    let val3 := sumL (leqPairs n1dm) fun p =>
      xcnst (i1mode.getD p.1 0) (i1mode.getD p.2 0) * (ofNat (v1.getD p.1 0) + half)
        * (ofNat (v1.getD p.2 0) + half)
    let val2 := sumTo n2dm fun ii => freq (i2mode.getD ii (0, 0)).1 * (ofNat (v2.getD ii (0, 0)).1 + one)
    let val4 := sumL (pairs n1dm n2dm) fun p =>
      xcnst (i1mode.getD p.1 0) (i2mode.getD p.2 (0, 0)).1 *
        ((ofNat (v1.getD p.1 0) + half) * (ofNat (v2.getD p.2 (0, 0)).1 + one))
    let val5 := sumL (leqPairs n2dm) fun p =>
      xcnst (i2mode.getD p.1 (0, 0)).1 (i2mode.getD p.2 (0, 0)).1 *
        ((ofNat (v2.getD p.1 (0, 0)).1 + one) * (ofNat (v2.getD p.2 (0, 0)).1 + one))
    (engVal6 i2mode gcnst v2).map fun val6 => val1 + val2 + val3 + val4 + val5 + val6 + e0
  else none

/-- `part1`, /repo/spectro/src/enrgy.rs:105-175. -/
def part1Eng (nstate : Nat) (i1mode : List Nat) (i2mode : List (Nat × Nat)) (freq : Vec α) (xcnst : Mat α)
    (gcnst : Option (Mat α)) (e0 : α) (sp : StatePartition) (eng : List α) : Option (List α) :=
  (List.range nstate).foldlM (fun eng nst => do
    let v1 ← sp.i1sts[nst]?
    let v2 ← sp.i2sts[nst]?
    let e ← stateEnergy i1mode i2mode freq xcnst gcnst e0 v1 v2
    setAt eng nst e) eng

/-- nalgebra's `SymmetricEigen::new` on the matrix `[[p, v], [v, q]]` (`dmatrix!` at
/repo/spectro/src/utils.rs:364-367, 399-402): a parameter of the model, returning eigenvalues and
eigenvectors. -/
abbrev Eigen2 (α : Type) := α → α → α → List α × Mat α

/-- The common body of `rsfrm1` and `rsfrm2`, /repo/spectro/src/utils.rs:364-378, 399-412: mixes the levels
`s` and `t` with coupling `val`. `swap` tells in which order the `else` branch assigns: `rsfrm2` assigns
`t` first (376-377), `rsfrm1` assigns `s` first (410-411). Indexing past the end panics. -/
def mixLevels (eigen : Eigen2 α) (swap : Bool) (s t : Nat) (val : α) (eng : List α) : Option (List α) := do
  let es ← eng[s]?
  let et ← eng[t]?
  let e0 ← eng[0]?
  let r := eigen (es - e0) val (et - e0)
  let d := symmEigenDecomp r.1 r.2 false
  let l0 ← d.1[0]?
  let l1 ← d.1[1]?
  let a := d.2 0 0
  let b := d.2 1 0
  if Arith.lt (Arith.abs b) (Arith.abs a) then
    let eng ← setAt eng s (l0 + e0)
    let e0 ← eng[0]?
    setAt eng t (l1 + e0)
  else if swap then
    let eng ← setAt eng t (l0 + e0)
    let e0 ← eng[0]?
    setAt eng s (l1 + e0)
  else
    let eng ← setAt eng s (l1 + e0)
    let e0 ← eng[0]?
    setAt eng t (l0 + e0)

/-- `2.0 * SQRT_2`, /repo/spectro/src/utils.rs:363, 394. -/
def twoSqrtTwo : α := Arith.lit 2.0 * Arith.sqrt (Arith.lit 2.0)

/-- `rsfrm2`, /repo/spectro/src/utils.rs:354-380. -/
def rsfrm2 (eigen : Eigen2 α) (ijst kst ivib jvib kvib : Nat) (f3 : T3 α) (eng : List α) : Option (List α) :=
  mixLevels eigen true ijst kst (f3 ivib jvib kvib / twoSqrtTwo) eng

/-- `rsfrm1`, /repo/spectro/src/utils.rs:384-414. -/
def rsfrm1 (eigen : Eigen2 α) (ist jst ivib jvib : Nat) (f3 : T3 α) (eng : List α) (deg : Bool) :
    Option (List α) :=
  mixLevels eigen false ist jst
    (if deg then f3 ivib ivib jvib / twoSqrtTwo else Arith.lit 0.25 * f3 ivib ivib jvib) eng

/-- One call of `rsfrm1` (with its `deg` argument) or `rsfrm2` in `enrgy`, /repo/spectro/src/enrgy.rs:49-100. -/
inductive MixCall where
  | type1 (ivib jvib : Nat) (deg : Bool)
  | type2 (ivib jvib kvib : Nat)
  deriving DecidableEq, Repr

/-- The lookup and the call, /repo/spectro/src/enrgy.rs:52-54, 59-62, 73-76, 85-87, 94-97; indexing the
tables past the end panics. -/
def MixCall.exec (eigen : Eigen2 α) (ifunda iovrtn icombn : List Nat) (f3 : T3 α) (eng : List α) :
    MixCall → Option (List α)
  | .type1 ivib jvib deg => do
    let ist ← iovrtn[ivib]?
    let jst ← ifunda[jvib]?
    rsfrm1 eigen ist jst ivib jvib f3 eng deg
  | .type2 ivib jvib kvib => do
    let ijst ← icombn[pairIdx ivib jvib]?
    let kst ← ifunda[kvib]?
    rsfrm2 eigen ijst kst ivib jvib kvib f3 eng

/-- The calls for non-degenerate modes, /repo/spectro/src/enrgy.rs:49-65. -/
def mixCalls1 (t : FermiChecks) (i1mode : List Nat) : List MixCall :=
  (List.range i1mode.length).flatMap fun iii =>
    let ivib := i1mode.getD iii 0
    (match t.ifrm1 ivib with | some jvib => [.type1 ivib jvib false] | none => []) ++
    (List.range' (iii + 1) (i1mode.length - (iii + 1))).flatMap fun jjj =>
      let jvib := i1mode.getD jjj 0
      match t.ifrm2 (jvib, ivib) with | some kvib => [.type2 ivib jvib kvib] | none => []

/-- The mixed calls, /repo/spectro/src/enrgy.rs:68-79. -/
def mixCalls12 (t : FermiChecks) (i1mode : List Nat) (i2mode : List (Nat × Nat)) : List MixCall :=
  i1mode.flatMap fun ivib => i2mode.flatMap fun q =>
    match t.ifrm2.getEither (q.1, ivib) with | some kvib => [.type2 ivib q.1 kvib] | none => []

/-- The calls for degenerate modes, /repo/spectro/src/enrgy.rs:82-100. -/
def mixCalls2 (t : FermiChecks) (i2mode : List (Nat × Nat)) : List MixCall :=
  (List.range i2mode.length).flatMap fun ii =>
    let ivib := (i2mode.getD ii (0, 0)).1
    (match t.ifrm1 ivib with | some jvib => [.type1 ivib jvib true] | none => []) ++
    (List.range' (ii + 1) (i2mode.length - (ii + 1))).flatMap fun jj =>
      let jvib := (i2mode.getD jj (0, 0)).1
      match t.ifrm2.getEither (jvib, ivib) with | some kvib => [.type2 ivib jvib kvib] | none => []

/-- All calls of `rsfrm1` and `rsfrm2` in execution order, /repo/spectro/src/enrgy.rs:46-100. -/
def mixCalls (t : FermiChecks) (modes : List Mode) : List MixCall :=
  let p := Mode.partition modes
  mixCalls1 t p.1 ++ mixCalls12 t p.1 p.2.1 ++ mixCalls2 t p.2.1

/-- `Spectro::enrgy`, /repo/spectro/src/enrgy.rs:15-101. -/
def enrgy (eigen : Eigen2 α) (freq : Vec α) (xcnst : Mat α) (gcnst : Option (Mat α)) (r : Restst)
    (f3 : T3 α) (e0 : α) (eng : List α) : Option (List α) := do
  let p := Mode.partition r.modes
  let eng ← part1Eng r.states.length p.1 p.2.1 freq xcnst gcnst e0 (State.partition r.states) eng
  (mixCalls (makeFermiChecks r.fermi1 r.fermi2) r.modes).foldlM
    (fun eng c => c.exec eigen r.ifunda r.iovrtn r.icombn f3 eng) eng

/-- The part of `Spectro::finish` that computes the zero-point energy and the corrected fundamentals,
/repo/spectro/src/run.rs:275-305, 336; `init` is the array before `enrgy` (zeros at 275, possibly changed by
the optional polyad step). -/
def correctedFunds (eigen : Eigen2 α) (freq : Vec α) (xcnst : Mat α) (gcnst : Option (Mat α)) (r : Restst)
    (f3 : T3 α) (e0 : α) (init : List α) : Option (α × List α) := do
  let eng ← enrgy eigen freq xcnst gcnst r f3 e0 init
  let c := Mode.count r.modes
  let zpt ← eng[0]?
  let corrs ← (List.range' 1 (c.1 + c.2.1 + c.2.2)).mapM fun i => do
    let e ← eng[i]?
    return e - zpt
  return (zpt, corrs)

end Verif
