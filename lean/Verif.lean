import Verif.Core
import Verif.Props.StrictInt
import Verif.Props.StrictMath
import Verif.Props.Index
import Verif.Props.Slice
import Verif.Spec.Nested
import Verif.Props.Nested
import Verif.Props.Array1D
import Verif.Props.History1D
import Verif.Props.Assign1D
import Verif.Props.Heap
import Verif.Props.Storage
import Verif.Props.Array2D
import Verif.Props.Insert2D
import Verif.Props.History2D
import Verif.Props.View
import Verif.Props.Assign
import Verif.Props.Expr
import Verif.Props.Concat
import Verif.Props.Generate
import Verif.Props.Ops
import Verif.Props.Extrema
import Verif.Props.Poly
import Verif.Props.Select
import Verif.Props.ErrorFree
import Verif.Props.PowProds
import Verif.Props.Stable
import Verif.Props.StablePoly
import Verif.Props.Iter
import Verif.Props.Random
import Verif.Props.ErrorTools
import Verif.Props.IO
import Verif.Props.Print
import Verif.Props.FloatIO
import Verif.Props.Lifetime
import Verif.Props.Checks
import Verif.Props.Checks2
import Verif.Props.Checks3
import Verif.Props.Scalar
import Verif.Spec.Fixed
import Verif.Model.Fixed
import Verif.Model.Attach
import Verif.Props.Fixed
import Verif.Props.Attach
import Verif.Model.StdRandom
import Verif.Spec.StdRandom
import Verif.Props.StdRandom
import Verif.Spec.Modest
import Verif.Lemmas.Safe
import Verif.Lemmas.Safe2
import Verif.Props.Safe
import Verif.Spec.ArrayOps
import Verif.Model.ArrayOps
import Verif.Props.ArrayOps
import Verif.Model.Overload
import Verif.Spec.Temps
import Verif.Lemmas.Overload
import Verif.Lemmas.Temps
import Verif.Props.Temps
import Verif.Model.Eigen
import Verif.Spec.Eigen
import Verif.Lemmas.Eigen
import Verif.Props.Eigen
import Verif.Model.FloatLit
import Verif.Spec.FloatLit
import Verif.Lemmas.FloatLit
import Verif.Props.FloatLit
import Verif.Model.Ieee
import Verif.Spec.Ieee
import Verif.Lemmas.Ieee
import Verif.Props.Ieee
import Verif.Props.IeeeOps
import Verif.Props.IeeeFinite
import Verif.Props.IeeeArith
import Verif.Props.IeeeMore
import Verif.Model.Format
import Verif.Spec.Format
import Verif.Props.Format
import Verif.Lemmas.Format
import Verif.Props.Quad
import Verif.Model.FloatOps
import Verif.Spec.FloatOps
import Verif.Props.FloatOps
import Verif.Props.FastPow
import Verif.Model.Floor
import Verif.Props.Floor
import Verif.Model.HeapOps
import Verif.Spec.Memory
import Verif.Lemmas.HeapOps
import Verif.Lemmas.HeapStmts
import Verif.Props.Memory
import Verif.Model.HeapOps2
import Verif.Spec.Memory2
import Verif.Lemmas.HeapOps2
import Verif.Lemmas.HeapStmts2
import Verif.Lemmas.HeapExec2
import Verif.Props.Memory2
import Verif.Spec.Program
import Verif.Model.Program
import Verif.Lemmas.Program
import Verif.Props.Program
import Verif.Spec.Accuracy
import Verif.Props.Rounding
import Verif.Model.RandomExpr
import Verif.Spec.RandomExpr
import Verif.Props.RandomExpr
import Verif.Model.Sizes
import Verif.Props.Sizes
import Verif.Model.Examples
import Verif.Spec.Examples
import Verif.Lemmas.Jacobi
import Verif.Lemmas.Dominant
import Verif.Props.Jacobi
import Verif.Props.Ode
import Verif.Spec.Agree
import Verif.Lemmas.Agree
import Verif.Props.Agree
import Verif.Model.Idioms
import Verif.Spec.Idioms
import Verif.Lemmas.Idioms
import Verif.Props.SliceLaws
import Verif.Props.Idioms
import Verif.Spec.TermLaws
import Verif.Lemmas.TermLaws
import Verif.Props.TermLaws
import Verif.Model.IndexRange
import Verif.Spec.IndexRange
import Verif.Props.IndexRange
import Verif.Model.RandomAll
import Verif.Spec.RandomAll
import Verif.Lemmas.RandomAll
import Verif.Props.RandomAll
import Verif.Spec.Algebra
import Verif.Lemmas.Algebra
import Verif.Props.Algebra
import Verif.Spec.Norms
import Verif.Lemmas.Norms
import Verif.Props.Norms
import Verif.Model.Timer
import Verif.Spec.Timer
import Verif.Props.Timer
import Verif.Spec.Statements
import Verif.Lemmas.Statements
import Verif.Props.Statements
import Verif.Spec.Order
import Verif.Lemmas.Order
import Verif.Props.Order
import Verif.Spec.Backward
import Verif.Props.Backward
import Verif.Lemmas.Congr
import Verif.Spec.Threads
import Verif.Lemmas.Threads
import Verif.Props.Threads
import Verif.Spec.Replace
import Verif.Props.Replace
import Verif.Model.Convert
import Verif.Spec.Convert
import Verif.Lemmas.Convert
import Verif.Props.Convert
import Verif.Model.Algorithm
import Verif.Spec.Algorithm
import Verif.Lemmas.Algorithm
import Verif.Lemmas.Shuffle
import Verif.Props.Algorithm
import Verif.Model.Table
import Verif.Spec.Table
import Verif.Props.Table
import Verif.Props.RandomPrint
import Verif.Model.RandomPrint
import Verif.Spec.RandomPrint
import Verif.Model.RangeCtor
import Verif.Props.RangeCtor
import Verif.Spec.Mixed
import Verif.Model.Mixed
import Verif.Spec.MixedState
import Verif.Lemmas.Mixed
import Verif.Props.Mixed
import Verif.Spec.Kept
import Verif.Lemmas.Kept
import Verif.Props.Kept
import Verif.Spec.EProg
import Verif.Model.EProg
import Verif.Lemmas.EProg
import Verif.Props.EProg
import Verif.Spec.SortLaws
import Verif.Model.SortStmt
import Verif.Props.SortLaws
import Verif.Lemmas.Indep
import Verif.Spec.WProg
import Verif.Model.WProg
import Verif.Lemmas.WProg
import Verif.Props.WProg
import Verif.Props.Iterate
import Verif.Spec.Diagnose
import Verif.Model.Diagnose
import Verif.Props.Diagnose
import Verif.Spec.Interchange
import Verif.Lemmas.Interchange
import Verif.Props.Interchange
import Verif.Lemmas.Interchange2
import Verif.Props.Interchange2
import Verif.Conformance
import Verif.Props.Tolerance
import Verif.Props.DefaultTol
import Verif.Props.Underflow
import Verif.Props.Example4
import Verif.Props.FExpr
import Verif.Props.FBound
import Verif.Props.Checks4
import Verif.Props.Fused
import Verif.Props.Fused2
import Verif.Props.Fused3
import Verif.Props.NormLp
