import Verif.Model.Resonance

/-!
# Resonance lookup tables (/repo/spectro/src/lib.rs:301-326, 975-982, ifrm1.rs, ifrm2.rs)
-/

namespace Verif

/-- A `HashMap<K, usize>`: the finite map as a partial function. The hash order is never observed by the
code modelled here (the only iteration is in the `Debug` output, /repo/spectro/src/ifrm2.rs:50-58). -/
abbrev HMap (K : Type) := K → Option Nat

/-- `HashMap::new`, /repo/spectro/src/ifrm1.rs:8, ifrm2.rs:7, lib.rs:976. -/
def HMap.empty {K : Type} : HMap K := fun _ => none

/-- `HashMap::insert`, /repo/spectro/src/ifrm1.rs:11-13, ifrm2.rs:10-16: replaces an earlier value. -/
def HMap.insert {K : Type} [DecidableEq K] (m : HMap K) (k : K) (v : Nat) : HMap K :=
  fun x => if x = k then some v else m x

/-- `check`, /repo/spectro/src/ifrm1.rs:20-23, ifrm2.rs:33-36. -/
def HMap.check {K : Type} (m : HMap K) (k : K) (v : Nat) : Bool := m k == some v

/-- `Ifrm2::get_either`, /repo/spectro/src/ifrm2.rs:24-30. -/
def HMap.getEither (m : HMap (Nat × Nat)) (k : Nat × Nat) : Option Nat :=
  match m k with
  | some e => some e
  | none => m (k.2, k.1)

/-- `Ifrm2::check_either`, /repo/spectro/src/ifrm2.rs:40-47. -/
def HMap.checkEither (m : HMap (Nat × Nat)) (k : Nat × Nat) (v : Nat) : Bool :=
  if m k == some v then true else m (k.2, k.1) == some v

/-- `Ifrm1`, /repo/spectro/src/ifrm1.rs:4. -/
abbrev Ifrm1 := HMap Nat
/-- `Ifrm2`, /repo/spectro/src/ifrm2.rs:3. -/
abbrev Ifrm2 := HMap (Nat × Nat)

/-- The three tables built by `make_fermi_checks`, /repo/spectro/src/lib.rs:305. `Tensor3<usize>` is a
function of three indices. -/
structure FermiChecks where
  ifrmchk : Nat → Nat → Nat → Nat
  ifrm1 : Ifrm1
  ifrm2 : Ifrm2

/-- `t[(i, j, k)] = 1` on the `Tensor3<usize>`, /repo/spectro/src/lib.rs:316, 321, 322 (indices in range:
the resonances name existing modes, see C26). -/
def chkSet (t : Nat → Nat → Nat → Nat) (i j k : Nat) : Nat → Nat → Nat → Nat :=
  fun a b c => if a = i ∧ b = j ∧ c = k then 1 else t a b c

/-- Loop body for a type-1 resonance, /repo/spectro/src/lib.rs:315-319. -/
def fermiStep1 (t : FermiChecks) (f : Fermi1) : FermiChecks :=
  ⟨chkSet t.ifrmchk f.i f.i f.j, t.ifrm1.insert f.i f.j, t.ifrm2.insert (f.i, f.i) f.j⟩

/-- Loop body for a type-2 resonance, /repo/spectro/src/lib.rs:320-324. -/
def fermiStep2 (t : FermiChecks) (f : Fermi2) : FermiChecks :=
  ⟨chkSet (chkSet t.ifrmchk f.i f.j f.k) f.j f.i f.k, t.ifrm1, t.ifrm2.insert (f.i, f.j) f.k⟩

/-- `make_fermi_checks`, /repo/spectro/src/lib.rs:301-326. -/
def makeFermiChecks (fermi1 : List Fermi1) (fermi2 : List Fermi2) : FermiChecks :=
  fermi2.foldl fermiStep2
    (fermi1.foldl fermiStep1 ⟨fun _ _ _ => 0, HMap.empty, HMap.empty⟩)

/-- `make_icorol`, /repo/spectro/src/lib.rs:975-982. -/
def makeIcorol (coriolis : List Coriolis) : HMap (Nat × Nat) :=
  coriolis.foldl (fun m c => (m.insert (c.i, c.j) c.axis).insert (c.j, c.i) c.axis) HMap.empty

end Verif
