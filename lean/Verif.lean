import Verif.Props.Index
import Verif.Props.Load
import Verif.Props.Rotate
import Verif.Props.Normal
import Verif.Props.Mode
import Verif.Props.State
import Verif.Props.Resonance
import Verif.Props.Fermi
import Verif.Props.Alpha
import Verif.Props.AlphaSym
import Verif.Props.Quartic
import Verif.Props.Sextic
import Verif.Props.Xcalc
import Verif.Props.Xcals
import Verif.Props.XcalsE0
import Verif.Props.Energy
import Verif.Props.Geom
import Verif.Props.Align
import Verif.Props.Polyad
import Verif.Props.PolyadRun
import Verif.Props.Listing
import Verif.Props.Run
import Verif.Props.Input
import Verif.Props.Files
import Verif.Props.Whole
import Verif.Props.Print
import Verif.Props.Reduce
import Verif.Props.Signs
import Verif.Props.Distort
import Verif.Props.Linear
import Verif.Props.SymTop
import Verif.Props.Frame
import Verif.Props.Molecule
import Verif.Props.SymRun
import Verif.Props.SymSolver
import Verif.Props.Finite
import Verif.Props.Perturb
import Verif.Props.Coupled
import Verif.Props.Rovib
import Verif.Props.Threefold
import Verif.Props.ThreefoldRun
import Verif.Props.Equivalent
import Verif.Props.EquivalentRovib
import Verif.Props.Rounding
import Verif.Props.ResonanceSym
import Verif.Props.VanVleck
import Verif.Props.ThreefoldZero
import Verif.Props.RovibSym
import Verif.Props.RovibLinear
import Verif.Props.RovibRun
import Verif.Props.RoundingFields
import Verif.Props.RoundingAlpha
import Verif.Props.RoundingTau
import Verif.Props.RoundingEnergy
import Verif.Props.RoundingZero
import Verif.Props.RoundingRun
import Verif.Props.RoundingRots
import Verif.Props.RoundingQuartic
import Verif.Props.Compare
