import Verif.Props.NLerp32
import Verif.Props.SelfBlend32
import Verif.Props.Euler32
import Verif.Simd
import Verif.Spec.PGA
import Verif.Spec.Estimate
import Verif.Kernels.InnerProduct
import Verif.Kernels.ExteriorProduct
import Verif.Kernels.GeometricProduct
import Verif.Kernels.Sandwich
import Verif.Kernels.Matrix
import Verif.Api.Embed
import Verif.Lemmas.Newton
import Verif.Lemmas.Inj
import Verif.Props.Products
import Verif.Props.MeetJoin
import Verif.Props.Actions
import Verif.Props.WellFormed
import Verif.Props.Composition
import Verif.Spec.Euclid
import Verif.Api.Coords
import Verif.Props.Rigid
import Verif.Kernels.ExpLog
import Verif.Api.Trans
import Verif.Lemmas.Norm
import Verif.Lemmas.ArgLip
import Verif.Lemmas.ExpLip
import Verif.Props.Newton
import Verif.Props.Norms
import Verif.Props.Inverses
import Verif.Props.Sqrt
import Verif.Lemmas.Conj
import Verif.Props.Covariance
import Verif.Props.Incidence
import Verif.Props.Metric
import Verif.Spec.RealLib
import Verif.Spec.Rodrigues
import Verif.Lemmas.Cis
import Verif.Props.Exp
import Verif.Props.Ctor
import Verif.Props.Log
import Verif.Props.RotorLog
import Verif.Props.Euler
import Verif.Props.Matrices
import Verif.Memory.Basic
import Verif.Memory.Arrays
import Verif.Memory.Cxx11
import Verif.Props.Builds
import Verif.Props.Cxx11
import Verif.Props.Arrays
import Verif.Float.Binary32
import Verif.Float.Fast
import Verif.Float.Basic
import Verif.Memory.Floats
import Verif.Props.Compare
import Verif.Props.Linear
import Verif.Props.Closure
import Verif.Glsl.Klein
import Verif.CApi.Klein
import Verif.Props.Glsl
import Verif.Props.CApi
import Verif.Sym.Algebra
import Verif.Spec.Blade
import Verif.Sym.BladeLemmas
import Verif.Props.SymBlades
import Verif.Props.SymExt
import Verif.Sym.Poly
import Verif.Sym.PolyLemmas
import Verif.Props.SymPoly
import Verif.Props.SymMv
import Verif.Sym.Parser
import Verif.Props.SymTokens
import Verif.Props.SymParser
import Verif.Props.SymMeaning
import Verif.Sym.Repl
import Verif.Props.SymRepl
import Verif.Props.NormValues
import Verif.Spec.Clifford
import Verif.Float.Round
import Verif.Float.Rounded
import Verif.Props.Rounding
import Verif.Spec.Exterior
import Verif.Props.Clifford
import Verif.Float.Partial
import Verif.Props.Finite
import Verif.Float.Range
import Verif.Float.Newton32
import Verif.Props.Overflow
import Verif.Props.Normalize32
import Verif.Float.Order
import Verif.Float.Sqrt
import Verif.Props.RepoTests
import Verif.Float.Trig
import Verif.Float.TrigErr
import Verif.Props.TrigTests
import Verif.Props.SymValue
import Verif.Props.SymTests
import Verif.Props.SymScripts
import Verif.Props.SymScripts2
import Verif.Props.Interp
import Verif.Props.DocExamples
import Verif.Props.DoubleCover
import Verif.Props.Skeleton
import Verif.Float.Approx
import Verif.Props.Accuracy32
import Verif.Props.Trans32
import Verif.Props.Screw
import Verif.Props.DualQuat
import Verif.Props.Transform
import Verif.Props.Hw32
import Verif.Sym.FloatCoef
import Verif.Sym.Alias
import Verif.Props.SymAlias
import Verif.Props.SymFloat
import Verif.Sym.Session
import Verif.Props.SymSession
import Verif.Api.Util
import Verif.Props.Constants
import Verif.Float.Expr
import Verif.Float.Fma
import Verif.Float.Contracted
import Verif.Props.Products32
import Verif.Props.Drift32
import Verif.Props.Matrix32
import Verif.Props.Quot32
import Verif.Props.Contract32
import Verif.Props.ContractInv32
import Verif.Props.ContractChain32
import Verif.Props.ContractFlats32
import Verif.Props.ContractRenorm32
import Verif.Props.ContractExp32
import Verif.Props.ContractCtor32
import Verif.Props.ContractScrew32
import Verif.Props.ContractIntegrate32
import Verif.Props.ContractNorm32
import Verif.Props.Screw32
import Verif.Props.Slerp32
import Verif.Props.SlerpNear32
import Verif.Props.SymDemo
import Verif.Props.FixedPoints
import Verif.Props.SymFloatLines
import Verif.Asm.X86
import Verif.Props.PerfListings
import Verif.Glsl.Shim
import Verif.Props.GlslShim
import Verif.Props.Orbit32
import Verif.Props.Renorm32
import Verif.Props.Pose32
import Verif.Props.Integrate32
import Verif.Props.Kinematics32
import Verif.Props.Flats32
import Verif.Lemmas.LogLip
import Verif.Props.SlerpMotor32
import Verif.Props.SlerpWide32
import Verif.Props.LogSmall32
import Verif.Props.HalfTurn32
