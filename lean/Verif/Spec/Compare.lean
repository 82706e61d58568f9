import Verif.Model.Sextic

/-!
# The constants by name
-/

namespace Verif

variable {α : Type}

/-- All quartic constants, spec of the fields at /repo/spectro/src/quartic.rs:19-52. -/
def quarticFields : List (Quartic α → α) :=
  [(·.sigma), (·.rkappa), (·.delj), (·.delk), (·.deljk), (·.sdelk), (·.sdelj), (·.bxa), (·.bya), (·.bza), (·.djn), (·.djkn), (·.dkn), (·.sdjn), (·.r5), (·.r6), (·.dj), (·.djk), (·.dk), (·.sd1), (·.sd2), (·.bxs), (·.bys), (·.bzs), (·.djw), (·.djkw), (·.dkw), (·.de)]

/-- All sextic constants, spec of the fields at /repo/spectro/src/sextic.rs:22-41. -/
def sexticFields : List (Sextic α → α) :=
  [(·.phij), (·.phijk), (·.phikj), (·.phik), (·.sphij), (·.sphijk), (·.sphik), (·.hj), (·.hjk), (·.hkj), (·.hk), (·.h1), (·.h2), (·.h3), (·.he)]

end Verif
