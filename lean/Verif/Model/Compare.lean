import Verif.Model.Sextic

/-!
# The comparisons used by the tests of the project, and the difference of two sets of quartic constants
-/

namespace Verif

variable {α : Type} [Arith α]

/-- `f64::abs_diff_eq` of the crate `approx`, called at /repo/spectro/src/quartic.rs:63-90: the crate is not part of /repo; it compares the
absolute difference to the tolerance. -/
def floatClose (x y ε : α) : Bool := Arith.le (Arith.abs (x - y)) ε

/-- `Quartic::abs_diff_eq`, /repo/spectro/src/quartic.rs:62-91. -/
def Quartic.close (a b : Quartic α) (ε : α) : Bool :=
  floatClose a.sigma b.sigma ε &&
  floatClose a.rkappa b.rkappa ε &&
  floatClose a.delj b.delj ε &&
  floatClose a.delk b.delk ε &&
  floatClose a.deljk b.deljk ε &&
  floatClose a.sdelk b.sdelk ε &&
  floatClose a.sdelj b.sdelj ε &&
  floatClose a.bxa b.bxa ε &&
  floatClose a.bya b.bya ε &&
  floatClose a.bza b.bza ε &&
  floatClose a.djn b.djn ε &&
  floatClose a.djkn b.djkn ε &&
  floatClose a.dkn b.dkn ε &&
  floatClose a.sdjn b.sdjn ε &&
  floatClose a.r5 b.r5 ε &&
  floatClose a.r6 b.r6 ε &&
  floatClose a.dj b.dj ε &&
  floatClose a.djk b.djk ε &&
  floatClose a.dk b.dk ε &&
  floatClose a.sd1 b.sd1 ε &&
  floatClose a.sd2 b.sd2 ε &&
  floatClose a.bxs b.bxs ε &&
  floatClose a.bys b.bys ε &&
  floatClose a.bzs b.bzs ε &&
  floatClose a.djw b.djw ε &&
  floatClose a.djkw b.djkw ε &&
  floatClose a.dkw b.dkw ε &&
  floatClose a.de b.de ε

/-- `Quartic::sub`, /repo/spectro/src/quartic.rs:97-128. -/
def Quartic.minus (a b : Quartic α) : Quartic α where
  sigma := a.sigma - b.sigma
  rkappa := a.rkappa - b.rkappa
  delj := a.delj - b.delj
  delk := a.delk - b.delk
  deljk := a.deljk - b.deljk
  sdelk := a.sdelk - b.sdelk
  sdelj := a.sdelj - b.sdelj
  bxa := a.bxa - b.bxa
  bya := a.bya - b.bya
  bza := a.bza - b.bza
  djn := a.djn - b.djn
  djkn := a.djkn - b.djkn
  dkn := a.dkn - b.dkn
  sdjn := a.sdjn - b.sdjn
  r5 := a.r5 - b.r5
  r6 := a.r6 - b.r6
  dj := a.dj - b.dj
  djk := a.djk - b.djk
  dk := a.dk - b.dk
  sd1 := a.sd1 - b.sd1
  sd2 := a.sd2 - b.sd2
  bxs := a.bxs - b.bxs
  bys := a.bys - b.bys
  bzs := a.bzs - b.bzs
  djw := a.djw - b.djw
  djkw := a.djkw - b.djkw
  dkw := a.dkw - b.dkw
  de := a.de - b.de

/-- `Sextic::abs_diff_eq` with its macro, /repo/spectro/src/sextic.rs:43-67. -/
def Sextic.close (a b : Sextic α) (ε : α) : Bool :=
  floatClose a.phij b.phij ε &&
  floatClose a.phijk b.phijk ε &&
  floatClose a.phikj b.phikj ε &&
  floatClose a.phik b.phik ε &&
  floatClose a.sphij b.sphij ε &&
  floatClose a.sphijk b.sphijk ε &&
  floatClose a.sphik b.sphik ε &&
  floatClose a.hj b.hj ε &&
  floatClose a.hjk b.hjk ε &&
  floatClose a.hkj b.hkj ε &&
  floatClose a.hk b.hk ε &&
  floatClose a.h1 b.h1 ε &&
  floatClose a.h2 b.h2 ε &&
  floatClose a.h3 b.h3 ε &&
  floatClose a.he b.he ε && true

/-- `Rot::abs_diff_eq`, /repo/spectro/src/rot.rs:29-34. -/
def Rot.close (a b : Rot α) (ε : α) : Bool :=
  decide (a.state = b.state) && floatClose a.a b.a ε && floatClose a.b b.b ε && floatClose a.c b.c ε

end Verif
