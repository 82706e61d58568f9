import Verif.Model.Mode

/-!
# Vibrational states (/repo/spectro/src/state.rs, resonance.rs:153-273)
-/

namespace Verif

/-- `State`, /repo/spectro/src/state.rs:4-22. -/
inductive State where
  | i1st (v : List Nat)
  | i2st (v : List (Nat × Nat))
  | i3st (v : List Nat)
  | i12st (i1st : List Nat) (i2st : List (Nat × Nat))
  deriving DecidableEq, Repr

/-- `State::len`, /repo/spectro/src/state.rs:37-47; the assertion that both vectors have the same length is `none` when
it fails. -/
def State.len : State → Option Nat
  | .i1st v => some v.length
  | .i2st v => some v.length
  | .i3st v => some v.length
  | .i12st a b => if a.length = b.length then some a.length else none

/-- `StatePartition`, /repo/spectro/src/state.rs:25-34. -/
structure StatePartition where
  i1sts : List (List Nat)
  i2sts : List (List (Nat × Nat))
  i3sts : List (List Nat)

/-- `State::partition`, /repo/spectro/src/state.rs:52-82. -/
def State.partition (states : List State) : StatePartition :=
  states.foldl (fun ret s => match s with
    | .i1st v => ⟨ret.i1sts ++ [v], ret.i2sts ++ [List.replicate v.length (0, 0)],
        ret.i3sts ++ [List.replicate v.length 0]⟩
    | .i2st v => ⟨ret.i1sts ++ [List.replicate v.length 0], ret.i2sts ++ [v],
        ret.i3sts ++ [List.replicate v.length 0]⟩
    | .i3st v => ⟨ret.i1sts ++ [List.replicate v.length 0],
        ret.i2sts ++ [List.replicate v.length (0, 0)], ret.i3sts ++ [v]⟩
    | .i12st a b => ⟨ret.i1sts ++ [a], ret.i2sts ++ [b],
        ret.i3sts ++ [List.replicate a.length 0]⟩) ⟨[], [], []⟩

/-- `tmp[ii] = v` on a `Vec`, /repo/spectro/src/resonance.rs:172; out of bounds panics (`none`). -/
def setAt {β : Type} (l : List β) (ii : Nat) (v : β) : Option (List β) :=
  if ii < l.length then some (l.set ii v) else none

/-- The three index tables of `Restst`, /repo/spectro/src/resonance.rs:132-134. -/
inductive Slot where
  | fund (i : Nat)
  | ovrtn (i : Nat)
  | combn (ij : Nat)
  deriving DecidableEq, Repr

/-- The variables of the state enumeration, /repo/spectro/src/resonance.rs:159-165. -/
structure StateTab where
  states : List State
  ifunda : List Nat
  iovrtn : List Nat
  icombn : List Nat
  ist : Nat

/-- `table[i] = ist`, e.g. /repo/spectro/src/resonance.rs:175, 206, 230; out of bounds panics. -/
def writeSlot (t : StateTab) (s : Slot) : Option StateTab :=
  match s with
  | .fund i => (setAt t.ifunda i t.ist).map fun l => { t with ifunda := l }
  | .ovrtn i => (setAt t.iovrtn i t.ist).map fun l => { t with iovrtn := l }
  | .combn ij => (setAt t.icombn ij t.ist).map fun l => { t with icombn := l }

/-- One loop body of the enumeration: the state built (`none` if building it indexes out of bounds) and
the table entries that are set to `ist`. Every body at /repo/spectro/src/resonance.rs:170-273 has this
shape: build, push, write the tables, `ist += 1`. -/
structure StateItem where
  state : Option State
  slots : List Slot

/-- Executing one loop body, e.g. /repo/spectro/src/resonance.rs:171-176. -/
def stateStep (t : StateTab) (it : StateItem) : Option StateTab := do
  let s ← it.state
  let t ← it.slots.foldlM writeSlot { t with states := t.states ++ [s] }
  return { t with ist := t.ist + 1 }

/-- Fundamentals of non-degenerate modes, /repo/spectro/src/resonance.rs:170-177. -/
def fund1Items (nvib : Nat) (i1mode : List Nat) : List StateItem :=
  (List.range i1mode.length).map fun ii =>
    ⟨(setAt (List.replicate nvib 0) ii 1).map .i1st, [.fund (i1mode.getD ii 0)]⟩

/-- Fundamentals of doubly degenerate modes, /repo/spectro/src/resonance.rs:178-186. -/
def fund2Items (nvib : Nat) (i2mode : List (Nat × Nat)) : List StateItem :=
  (List.range i2mode.length).map fun ii =>
    ⟨(setAt (List.replicate nvib (0, 0)) ii (1, 1)).map .i2st,
      [.fund (i2mode.getD ii (0, 0)).1, .fund (i2mode.getD ii (0, 0)).2]⟩

/-- Fundamentals of triply degenerate modes, /repo/spectro/src/resonance.rs:187-196. -/
def fund3Items (nvib : Nat) (i3mode : List (Nat × Nat × Nat)) : List StateItem :=
  (List.range i3mode.length).map fun ii =>
    ⟨(setAt (List.replicate nvib 0) ii 1).map .i3st,
      [.fund (i3mode.getD ii (0, 0, 0)).1, .fund (i3mode.getD ii (0, 0, 0)).2.1,
        .fund (i3mode.getD ii (0, 0, 0)).2.2]⟩

/-- Overtones of non-degenerate modes, /repo/spectro/src/resonance.rs:201-208. -/
def ovr1Items (nvib : Nat) (i1mode : List Nat) : List StateItem :=
  (List.range i1mode.length).map fun ii =>
    ⟨(setAt (List.replicate nvib 0) ii 2).map .i1st, [.ovrtn (i1mode.getD ii 0)]⟩

/-- Overtones of doubly degenerate modes, /repo/spectro/src/resonance.rs:209-217. -/
def ovr2Items (nvib : Nat) (i2mode : List (Nat × Nat)) : List StateItem :=
  (List.range i2mode.length).map fun ii =>
    ⟨(setAt (List.replicate nvib (0, 0)) ii (2, 0)).map .i2st,
      [.ovrtn (i2mode.getD ii (0, 0)).1, .ovrtn (i2mode.getD ii (0, 0)).2]⟩

/-- Combination of two non-degenerate modes, /repo/spectro/src/resonance.rs:223-232. -/
def comb11Item (nvib : Nat) (i1mode : List Nat) (ii jj : Nat) : StateItem :=
  ⟨((setAt (List.replicate nvib 0) ii 1).bind fun t => setAt t jj 1).map .i1st,
    [.combn (pairIdx (i1mode.getD ii 0) (i1mode.getD jj 0))]⟩

/-- Combination of a non-degenerate and a degenerate mode,
/repo/spectro/src/resonance.rs:235-251. -/
def comb12Item (nvib : Nat) (i1mode : List Nat) (i2mode : List (Nat × Nat)) (ii jj : Nat) :
    StateItem :=
  ⟨(setAt (List.replicate nvib 0) ii 1).bind fun i1st =>
      (setAt (List.replicate nvib (0, 0)) jj (1, 1)).map fun i2st => .i12st i1st i2st,
    [.combn (pairIdx (i1mode.getD ii 0) (i2mode.getD jj (0, 0)).1),
      .combn (pairIdx (i1mode.getD ii 0) (i2mode.getD jj (0, 0)).2)]⟩

/-- The combination bands of each non-degenerate mode, /repo/spectro/src/resonance.rs:220-252. -/
def comb1Items (nvib : Nat) (i1mode : List Nat) (i2mode : List (Nat × Nat)) : List StateItem :=
  (List.range i1mode.length).flatMap fun ii =>
    ((List.range' (ii + 1) (i1mode.length - (ii + 1))).map fun jj => comb11Item nvib i1mode ii jj) ++
    ((List.range i2mode.length).map fun jj => comb12Item nvib i1mode i2mode ii jj)

/-- Combinations of two degenerate modes, /repo/spectro/src/resonance.rs:255-273. -/
def comb22Items (nvib : Nat) (i2mode : List (Nat × Nat)) : List StateItem :=
  (List.range i2mode.length).flatMap fun ii =>
    (List.range' (ii + 1) (i2mode.length - (ii + 1))).map fun jj =>
      let i := i2mode.getD ii (0, 0)
      let j := i2mode.getD jj (0, 0)
      ⟨((setAt (List.replicate nvib (0, 0)) ii (1, 1)).bind fun t => setAt t jj (1, 1)).map .i2st,
        [.combn (pairIdx i.1 j.1), .combn (pairIdx i.1 j.2), .combn (pairIdx i.2 j.1),
          .combn (pairIdx i.2 j.2)]⟩

/-- All loop bodies in execution order, /repo/spectro/src/resonance.rs:170-273. -/
def stateItems (nvib : Nat) (modes : List Mode) : List StateItem :=
  let p := Mode.partition modes
  fund1Items nvib p.1 ++ fund2Items nvib p.2.1 ++ fund3Items nvib p.2.2 ++
    ovr1Items nvib p.1 ++ ovr2Items nvib p.2.1 ++ comb1Items nvib p.1 p.2.1 ++ comb22Items nvib p.2.1

/-- The enumeration of states in `Restst::new`, /repo/spectro/src/resonance.rs:153-273. -/
def newStates (nvib i2vib : Nat) (modes : List Mode) : Option StateTab :=
  (stateItems nvib modes).foldlM stateStep
    ⟨[.i1st (List.replicate nvib 0)], List.replicate nvib 0, List.replicate nvib 0,
      List.replicate i2vib 0, 1⟩

end Verif
