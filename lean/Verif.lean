import Verif.Props.Serie
import Verif.Props.Functional
import Verif.Props.Combine
import Verif.Props.Parallel
import Verif.Props.Utils
import Verif.Props.Dataframe
import Verif.Props.Math
import Verif.Props.Stats
import Verif.Props.Algebra
import Verif.Props.View
import Verif.Props.Eigen
import Verif.Props.Geo
import Verif.Props.Attributes
import Verif.Props.Print
import Verif.Props.Float
import Verif.Props.FloatNorm
import Verif.Props.FloatStats
import Verif.Props.Special
import Verif.Props.SpecialMemo
import Verif.Props.SpecialStats
import Verif.Props.ParallelMemo
import Verif.Props.Laws
import Verif.Props.ParallelOps
import Verif.Props.FloatGeo
import Verif.Props.FloatInv
import Verif.Props.Examples
import Verif.Props.Ieee
import Verif.Props.IeeeNorm
import Verif.Props.FloatEigen
import Verif.Props.SpecialReal
import Verif.Props.Ownership
import Verif.Props.Zeros
import Verif.Props.Units
import Verif.Props.TrueValues
import Verif.Props.Products
import Verif.Spec.Rounded
import Verif.Props.Rounded
import Verif.Spec.ZeroSigns
import Verif.Props.ZeroSigns
import Verif.Model.Support
import Verif.Props.Support
import Verif.Spec.Order
import Verif.Props.Order
import Verif.Props.Pieces
import Verif.Spec.Motion
import Verif.Props.Motion
import Verif.Props.Reassemble
import Verif.Spec.Principal
import Verif.Props.Principal
import Verif.Props.Grids
import Verif.Props.Insar
import Verif.Props.SpecialAlgebra
import Verif.Props.SpecialEigen
import Verif.Props.Digits
import Verif.Props.Safe
import Verif.Props.Answer
import Verif.Props.Pipeline
import Verif.Props.Twin
import Verif.Props.ByItem
import Verif.Props.Table
import Verif.Props.Flow
import Verif.Props.RowAttributes
import Verif.Props.Best
import Verif.Props.Histogram
import Verif.Props.Meshes
import Verif.Props.Sorted
import Verif.Props.Frames
import Verif.Props.Combinations
import Verif.Props.VectorOfItem
import Verif.Props.Decomposers
import Verif.Props.Zipped
import Verif.Props.Nested
import Verif.Props.Routine
import Verif.Props.Monotone
import Verif.Props.MonotoneRange
import Verif.Props.RunningError
import Verif.Props.RangedError
import Verif.Props.QuantileError
import Verif.Props.QuantileRange
import Verif.Props.BinsRange
import Verif.UnitTests
import Verif.Audit
