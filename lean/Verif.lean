import Verif.Props.Powers
import Verif.Props.Dichotomy
import Verif.Props.Interp
import Verif.Props.FindPk
import Verif.Props.Sigma
import Verif.Props.Quadrature
import Verif.Props.Kernels
import Verif.Props.Triangle
import Verif.Props.Gamma1
import Verif.Props.Gamma2
import Verif.Props.GaussError
import Verif.Props.Assembly
import Verif.Model.Terms
import Verif.Props.Redshift
import Verif.Props.Azimuth
import Verif.Props.AKernel
import Verif.Props.Bispectrum
import Verif.Props.Driver
import Verif.Props.Columns
import Verif.Props.Safety
import Verif.Props.Bias
import Verif.Props.PkInterp
import Verif.Props.Progress
import Verif.Props.ShotNoise
import Verif.Props.ThirdOrder
import Verif.Props.NoWiggle
import Verif.Props.Settings
import Verif.Props.AutoRange
import Verif.Props.Objects
import Verif.Props.Shared
import Verif.Props.Caller
import Verif.Props.BSpectra
import Verif.Props.Pad
import Verif.Props.Heap
import Verif.Props.LinMode
import Verif.Props.Positivity
import Verif.Props.Homogeneous
import Verif.Props.GrowthB
import Verif.Props.GrowthA
import Verif.Props.HalfPlane
import Verif.Props.LoopBispectrum
import Verif.Props.LoopA
import Verif.Props.LoopTable
import Verif.Props.LoopLimit
import Verif.Props.LoopPropagator
import Verif.Props.LoopQuadrature
import Verif.Props.Gamma2Limits
import Verif.Props.Variance
import Verif.Props.LoopB
import Verif.Proofs.LoopAInt
import Verif.Props.LoopA1
import Verif.Props.LoopOne
import Verif.Proofs.Pair
import Verif.Proofs.ThirdKernel
import Verif.Props.LoopThird
import Verif.Props.LargeScale
import Verif.Props.LongModes
import Verif.Props.ModeCoupling
import Verif.Props.Rounding
import Verif.Props.RootSearch
import Verif.Props.Superposition
import Verif.Props.Views
import Verif.Props.Container
import Verif.Props.Dispersion
import Verif.Props.Isosceles
import Verif.Props.Refine
import Verif.Props.RefineLoop
import Verif.Props.Inherited
import Verif.Props.Foreign
import Verif.Props.Verbosity
import Verif.Props.Amplitude
import Verif.Props.Units
import Verif.Props.Locality
import Verif.Props.Requests
import Verif.Props.OwnSettings
import Verif.Props.CommonColumns
import Verif.Props.RoundedLookup
import Verif.Props.RoundedNodes
import Verif.Model.Modulus
import Verif.Props.Modulus
