import Verif.Props.Params
import Verif.Props.NextEntry
import Verif.Props.Iterate
import Verif.Props.ParamAlias
import Verif.Props.Skeleton
import Verif.Props.ParFile
import Verif.Props.Tensors
import Verif.Props.Variables
import Verif.Props.VarList
import Verif.Props.VarArith
import Verif.Props.IntList
import Verif.Props.Storage
import Verif.Props.Bfaces
import Verif.Props.Index
import Verif.Props.Endian
import Verif.Props.CheckpointPars
import Verif.Props.CheckpointVars
import Verif.Props.CheckpointFiles
import Verif.Props.Evolve
import Verif.Props.Output
import Verif.Props.Words
import Verif.Props.RungeKutta
import Verif.Props.RkOrder
import Verif.Props.Cheb
import Verif.Props.Fourier
import Verif.Props.FiniteDiff
import Verif.Props.Matrices
import Verif.Props.SpecMatrices
import Verif.Props.Lines
import Verif.Props.Box3d
import Verif.Props.StdBox
import Verif.Props.Sparse
import Verif.Props.ParLoops
import Verif.Props.Utilities
import Verif.Props.ComplexFun
import Verif.Props.Bssn
import Verif.Props.DoubleCover
import Verif.Props.CoordTrafo
import Verif.Props.CubedSphere
import Verif.Props.CubedAngles
import Verif.Model.GridArrays
import Verif.Props.GridArrays
import Verif.Model.ReadMatrix
import Verif.Props.ReadMatrix
import Verif.Model.LU
import Verif.Props.LU
import Verif.Model.RootFind
import Verif.Props.RootFind
import Verif.Model.Minimize
import Verif.Props.Minimize
import Verif.Model.Attenuation
import Verif.Props.Attenuation
import Verif.Model.Integrals
import Verif.Model.Quadrature
import Verif.Props.Quadrature
import Verif.Model.Bicgstab
import Verif.Props.Bicgstab
import Verif.Props.BicgFinite
import Verif.Model.Sor
import Verif.Props.Sor
import Verif.Model.Newton
import Verif.Props.Newton
import Verif.Model.Ode
import Verif.Props.Ode
import Verif.Model.NewtonLine
import Verif.Model.RangeExtra
import Verif.Model.WTiter
import Verif.Props.NewtonLine
import Verif.Props.RangeExtra
import Verif.Props.WTiter
import Verif.Model.Umfpack
import Verif.Props.Umfpack
import Verif.Model.Jacobi
import Verif.Props.Jacobi
import Verif.Model.CartDerivs
import Verif.Props.CartDerivs
import Verif.Model.TransfDerivs
import Verif.Props.TransfDerivs
import Verif.Model.SurfaceInt
import Verif.Props.SurfaceInt
import Verif.Model.Boundary
import Verif.Props.Boundary
import Verif.Model.Fft
import Verif.Lemmas.Fft
import Verif.Lemmas.Cosft
import Verif.Props.Fft
import Verif.Model.FindXYZ
import Verif.Props.FindXYZ
import Verif.Model.InPlane
import Verif.Props.InPlane
import Verif.Model.Interbox
import Verif.Props.Interbox
import Verif.Model.BssnInit
import Verif.Props.BssnInit
import Verif.Model.Filters
import Verif.Props.Filters
import Verif.Lemmas.Legendre
import Verif.Model.Ylm
import Verif.Props.Ylm
import Verif.Model.SphInt
import Verif.Props.SphInt
import Verif.Model.Wigner
import Verif.Props.Wigner
import Verif.Model.Modes
import Verif.Props.ModesMath
import Verif.Props.Modes
import Verif.Model.AdmConstraints
import Verif.Props.Geometry
import Verif.Props.SmoothFields
import Verif.Props.AdmIndex
import Verif.Props.AdmConstraints
import Verif.Model.BssnRhs
import Verif.Props.Conformal
import Verif.Props.BssnIndex
import Verif.Props.BssnRhs
import Verif.Props.BssnGamma
import Verif.Props.BssnDt
import Verif.Props.BssnStep
import Verif.Props.BssnSmooth
import Verif.Model.KerrData
import Verif.Props.Congruence
import Verif.Props.KerrSchild
import Verif.Props.KerrConstraints
import Verif.Props.KerrField
import Verif.Props.SmoothOn
import Verif.Props.KerrSmooth
import Verif.Props.KerrValues
import Verif.Props.KerrData
import Verif.Props.Kerr3d
import Verif.Props.ConformallyFlat
import Verif.Model.IsotropicBH
import Verif.Props.IsotropicBH
import Verif.Model.Z4Rhs
import Verif.Props.Z4Index
import Verif.Props.Z4Dt
import Verif.Props.Z4Rhs
import Verif.Model.TestID
import Verif.Props.PlaneWave
import Verif.Props.TestID
import Verif.Model.ScalarWave
import Verif.Props.ScalarWave
import Verif.Model.AdmEnergy
import Verif.Props.AdmEnergy
import Verif.Props.Spacetime
import Verif.Model.Kerr4
import Verif.Props.Kerr4
import Verif.Model.ScalarKerr
import Verif.Props.ScalarKerr
import Verif.Model.ScalarBoundary
import Verif.Props.ScalarBoundary
import Verif.Props.ScalarOuter
import Verif.Props.ScalarWaveBoundary
import Verif.Props.FourierUnique
import Verif.Model.ScalarSource
import Verif.Props.ScalarSource
import Verif.Model.Poisson
import Verif.Props.Poisson
import Verif.Model.PNOrbit
import Verif.Props.PNOrbit
import Verif.Props.PNTanh
import Verif.Model.PNWaves
import Verif.Props.PNWaves
import Verif.Model.SphHarm
import Verif.Props.SphHarm
import Verif.Props.FSurf
import Verif.Model.FSurfCoeffs
import Verif.Props.FSurfCoeffs
import Verif.Model.CubedSetup
import Verif.Props.CubedSetup
import Verif.Model.BfaceFlags
import Verif.Props.BfaceFlags
import Verif.Model.FaceSplit
import Verif.Props.FaceSplit
import Verif.Model.TouchFaces
import Verif.Props.TouchFaces
import Verif.Model.MultiMin
import Verif.Props.MultiMin
import Verif.Model.WTNewton
import Verif.Props.WTNewton
import Verif.Model.AnsorgXR
import Verif.Props.AnsorgXR
import Verif.Model.AnsorgNS
import Verif.Props.AnsorgNS
import Verif.Model.AnsorgFull
import Verif.Props.AnsorgFull
import Verif.Model.BoxLists
import Verif.Props.BoxLists
import Verif.Model.Thz
import Verif.Props.Thz
import Verif.Model.DVSource
import Verif.Props.DVSource
import Verif.Model.DVCache
import Verif.Props.DVCache
import Verif.Model.FdJacobian
import Verif.Props.FdJacobian
import Verif.Model.NumberChecker
import Verif.Props.NumberChecker
import Verif.Model.TimeStep
import Verif.Props.TimeStep
import Verif.Model.Integral3D
import Verif.Props.Integral3D
import Verif.Model.Dissipation
import Verif.Props.Dissipation
import Verif.Model.Output0d
import Verif.Props.Output0d
import Verif.Model.FindExtrema
import Verif.Props.FindExtrema
import Verif.Model.ShellSetup
import Verif.Props.ShellSetup
import Verif.Model.ConvTest
import Verif.Props.ConvTest
import Verif.Model.NrLu
import Verif.Props.NrLu
import Verif.Model.VtkOut
import Verif.Props.VtkOut
import Verif.Model.NrUtil
import Verif.Props.NrUtil
import Verif.Model.NrTensor
import Verif.Props.NrTensor
import Verif.Model.Templates
import Verif.Props.Templates
import Verif.Model.EvolveTest
import Verif.Props.EvolveTest
import Verif.Model.SvdFit
import Verif.Props.SvdFit
import Verif.Model.OtherCheckpoint
import Verif.Props.OtherCheckpoint
import Verif.Model.QuickOut
import Verif.Props.QuickOut
import Verif.Model.Gnuplot2d
import Verif.Props.Gnuplot2d
import Verif.Model.Xgraph
import Verif.Props.Xgraph
