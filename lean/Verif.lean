import Verif.Props.ActiveSpace
import Verif.Props.Adaptive
import Verif.Props.AttachEom
import Verif.Props.Cc2
import Verif.Props.Cc2Rhf
import Verif.Props.CcEnergy
import Verif.Props.Ccd
import Verif.Props.Ccsd
import Verif.Props.CcsdPt
import Verif.Props.Ccsdt
import Verif.Props.CcsdtP
import Verif.Props.CcsdtPIteration
import Verif.Props.Cholesky
import Verif.Props.CipsiReader
import Verif.Props.ClosedAttach
import Verif.Props.ClosedCcsdt
import Verif.Props.ClosedCcsdtP
import Verif.Props.ClosedCrCc
import Verif.Props.ClosedEom
import Verif.Props.ClosedPair
import Verif.Props.ClosedShell
import Verif.Props.ClusterAnalysis
import Verif.Props.Combinatorics
import Verif.Props.CrCc23
import Verif.Props.Davidson
import Verif.Props.Density
import Verif.Props.Diis
import Verif.Props.DoubleAttachEom
import Verif.Props.DriverArrays
import Verif.Props.DriverParams
import Verif.Props.EomCcsd
import Verif.Props.Excitations
import Verif.Props.ExternalCorrection
import Verif.Props.FortranDeps
import Verif.Props.Goodson
import Verif.Props.GramSchmidt
import Verif.Props.GuessMatrix
import Verif.Props.Hilbert
import Verif.Props.IntegralFiles
import Verif.Props.Integrals
import Verif.Props.Jacobi
import Verif.Props.LeftAttachEom
import Verif.Props.LeftCcsd
import Verif.Props.LrCcsd
import Verif.Props.MomentSelection
import Verif.Props.Mp2
import Verif.Props.Mp3
import Verif.Props.NaturalOrbitals
import Verif.Props.Operators
import Verif.Props.Overlap
import Verif.Props.Permutations
import Verif.Props.PivotedCholesky
import Verif.Props.Precondition
import Verif.Props.PspaceUnion
import Verif.Props.Qp2
import Verif.Props.Rdm1
import Verif.Props.Reorder
import Verif.Props.Schedule
import Verif.Props.Selection
import Verif.Props.SelfEnergy
import Verif.Props.ShellCholesky
import Verif.Props.Sorting
import Verif.Props.SpinFlipEom
import Verif.Props.SpinMatrix
import Verif.Props.SpinMatrixCisd
import Verif.Props.Symmetry
import Verif.Props.System
import Verif.Props.Unravel
import Verif.Props.UpdateKernels
import Verif.Props.UpdateLeft
import Verif.Props.VvvvContraction
