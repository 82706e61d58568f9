import Verif.Model.Index

/-!
# Modes and rotors (/repo/spectro/src/mode.rs, resonance.rs:289-345, symm's `Rotor`)
-/

namespace Verif

variable {α : Type} [Arith α]

/-- `symm::rotor::Rotor`, re-exported at /repo/spectro/src/rotor.rs:8 (the crate is not in /repo; the
variants are the ones matched at rotor.rs:38-142 and lib.rs:290). -/
inductive Rotor where
  | diatomic | linear | sphericalTop | oblateSymmTop | prolateSymmTop | asymmTop | none
  deriving DecidableEq, Repr

/-- `Rotor::is_sym_top` (crate `symm`, used at /repo/spectro/src/resonance.rs:295, run.rs:195): inferred
from its uses (alphas.rs:23-30 and rotor.rs:44 treat linear, spherical, oblate and prolate rotors as
symmetric tops; run.rs:317 adds the diatomic case separately). -/
def Rotor.isSymTop : Rotor → Bool
  | linear | sphericalTop | oblateSymmTop | prolateSymmTop => true
  | diatomic | asymmTop | none => false

/-- `Mode`, /repo/spectro/src/mode.rs:4-8. -/
inductive Mode where
  | i1 (i : Nat)
  | i2 (i j : Nat)
  | i3 (i j k : Nat)
  deriving DecidableEq, Repr

/-- `Mode::count`, /repo/spectro/src/mode.rs:13-23. -/
def Mode.count (modes : List Mode) : Nat × Nat × Nat :=
  modes.foldl (fun ret m => match m with
    | .i1 _ => (ret.1 + 1, ret.2.1, ret.2.2)
    | .i2 _ _ => (ret.1, ret.2.1 + 1, ret.2.2)
    | .i3 _ _ _ => (ret.1, ret.2.1, ret.2.2 + 1)) (0, 0, 0)

/-- `Mode::partition`, /repo/spectro/src/mode.rs:29-45. -/
def Mode.partition (modes : List Mode) :
    List Nat × List (Nat × Nat) × List (Nat × Nat × Nat) :=
  modes.foldl (fun ret m => match m with
    | .i1 i => (ret.1 ++ [i], ret.2.1, ret.2.2)
    | .i2 i j => (ret.1, ret.2.1 ++ [(i, j)], ret.2.2)
    | .i3 i j k => (ret.1, ret.2.1, ret.2.2 ++ [(i, j, k)])) ([], [], [])

/-- `close`, /repo/spectro/src/utils.rs:160-162. -/
def close (a b eps : α) : Bool := Arith.lt (Arith.abs (a - b)) eps

/-- `DEG_TOL`, /repo/spectro/src/resonance.rs:296. -/
def DEG_TOL : α := Arith.lit 0.1

/-- The index pairs of `for i in 0..n { for j in i+1..n { .. }}`,
/repo/spectro/src/resonance.rs:319-321. -/
def incPairs (n : Nat) : List (Nat × Nat) :=
  (List.range n).flatMap fun i => (List.range' (i + 1) (n - (i + 1))).map fun j => (i, j)

/-- The index triples of the three nested loops at /repo/spectro/src/resonance.rs:298-302. -/
def incTriples (n : Nat) : List (Nat × Nat × Nat) :=
  (List.range n).flatMap fun i => (List.range' (i + 1) (n - (i + 1))).flatMap fun j =>
    (List.range' (j + 1) (n - (j + 1))).map fun k => (i, j, k)

/-- The triples pushed by the first pass of `deg_modes`, /repo/spectro/src/resonance.rs:298-315. -/
def degTriples (nvib : Nat) (freq : Vec α) : List (Nat × Nat × Nat) :=
  (incTriples nvib).filter fun p =>
    close (freq p.1) (freq p.2.1) DEG_TOL && close (freq p.1) (freq p.2.2) DEG_TOL &&
    [freq p.1, freq p.2.1, freq p.2.2].all fun f => Arith.lt DEG_TOL (Arith.abs f)

/-- `triples.contains(&x)`, /repo/spectro/src/resonance.rs:325 (the hash set holds the three indices of
every pushed triple). -/
def inTriples (l : List (Nat × Nat × Nat)) (x : Nat) : Bool :=
  l.any fun p => x == p.1 || x == p.2.1 || x == p.2.2

/-- The pairs pushed by the second pass, /repo/spectro/src/resonance.rs:319-333. -/
def degDoubles (nvib : Nat) (freq : Vec α) : List (Nat × Nat) :=
  (incPairs nvib).filter fun p =>
    close (freq p.1) (freq p.2) DEG_TOL &&
    ([freq p.1, freq p.2].all fun f => Arith.lt DEG_TOL (Arith.abs f)) &&
    !inTriples (degTriples nvib freq) p.1 && !inTriples (degTriples nvib freq) p.2

/-- `doubles.contains(&x)`, /repo/spectro/src/resonance.rs:335. -/
def inDoubles (l : List (Nat × Nat)) (x : Nat) : Bool := l.any fun p => x == p.1 || x == p.2

/-- `deg_modes`, /repo/spectro/src/resonance.rs:289-345. The hash sets are represented by the lists of
pushed tuples. -/
def degModes (rotor : Rotor) (nvib : Nat) (freq : Vec α) : List Mode :=
  if rotor.isSymTop then
    (degTriples nvib freq).map (fun p => Mode.i3 p.1 p.2.1 p.2.2) ++
    (degDoubles nvib freq).map (fun p => Mode.i2 p.1 p.2) ++
    ((List.range nvib).filter fun i =>
      !inTriples (degTriples nvib freq) i && !inDoubles (degDoubles nvib freq) i).map Mode.i1
  else (List.range nvib).map Mode.i1

end Verif
