import Verif.Model.Core
import Verif.Model.Counted.Core
import Verif.Model.Counted.Multicubic
import Verif.Model.Counted.Multilinear
import Verif.Model.Counted.Nearest
import Verif.Model.Counted.OneDim
import Verif.Model.Exact
import Verif.Model.JsonDoc
import Verif.Model.JsonText
import Verif.Model.Multicubic
import Verif.Model.Multicubic.Mod
import Verif.Model.Multicubic.Rectilinear
import Verif.Model.Multicubic.RectilinearRecursive
import Verif.Model.Multicubic.Regular
import Verif.Model.Multicubic.RegularRecursive
import Verif.Model.Multilinear
import Verif.Model.Multilinear.Rectilinear
import Verif.Model.Multilinear.RectilinearRecursive
import Verif.Model.Multilinear.Regular
import Verif.Model.Multilinear.RegularRecursive
import Verif.Model.Nearest
import Verif.Model.Nearest.Rectilinear
import Verif.Model.Nearest.Regular
import Verif.Model.OneDim
import Verif.Model.Python
import Verif.Model.PythonClasses
import Verif.Model.PythonHeap
import Verif.Model.PythonLayout
import Verif.Model.PythonShapes
import Verif.Model.Search
import Verif.Model.Unchecked.Core
import Verif.Model.Unchecked.Multicubic.Mod
import Verif.Model.Unchecked.Multicubic.Rectilinear
import Verif.Model.Unchecked.Multicubic.RectilinearRecursive
import Verif.Model.Unchecked.Multicubic.Regular
import Verif.Model.Unchecked.Multicubic.RegularRecursive
import Verif.Model.Unchecked.Multilinear.Rectilinear
import Verif.Model.Unchecked.Multilinear.RectilinearRecursive
import Verif.Model.Unchecked.Multilinear.Regular
import Verif.Model.Unchecked.Multilinear.RegularRecursive
import Verif.Model.Unchecked.Nearest.Rectilinear
import Verif.Model.Unchecked.Nearest.Regular
import Verif.Model.Unchecked.OneDim
import Verif.Model.Unchecked.Utils
import Verif.Model.Utils
import Verif.Spec.Accuracy
import Verif.Spec.Api
import Verif.Spec.Batch
import Verif.Spec.BinaryFormat
import Verif.Spec.Chunks
import Verif.Spec.Constructors
import Verif.Spec.Contract
import Verif.Spec.Counted
import Verif.Spec.CountedOneDim
import Verif.Spec.Crop
import Verif.Spec.DataRel
import Verif.Spec.Decimal
import Verif.Spec.DropAxis
import Verif.Spec.Dyadic
import Verif.Spec.EntryPoints
import Verif.Spec.ExtNum
import Verif.Spec.Grid
import Verif.Spec.Grid1D
import Verif.Spec.Ieee
import Verif.Spec.IeeeGrid1D
import Verif.Spec.IeeeNumpy
import Verif.Spec.Interpolant
import Verif.Spec.JsonDoc
import Verif.Spec.Jump
import Verif.Spec.Layout
import Verif.Spec.Locality
import Verif.Spec.PowerOfTwo
import Verif.Spec.Python
import Verif.Spec.PythonClasses
import Verif.Spec.PythonHeap
import Verif.Spec.PythonLayout
import Verif.Spec.PythonShapes
import Verif.Spec.Quadrature
import Verif.Spec.Rounding
import Verif.Spec.Search
import Verif.Spec.Slices
import Verif.Spec.Special
import Verif.Spec.Subgrid
import Verif.Spec.Table
import Verif.Spec.Tensor
import Verif.Spec.Unchecked
import Verif.Spec.ValueScale
import Verif.Lemmas.Accept
import Verif.Lemmas.Accuracy
import Verif.Lemmas.Api
import Verif.Lemmas.Basic
import Verif.Lemmas.Batch
import Verif.Lemmas.BatchTransfer
import Verif.Lemmas.BinaryFormat
import Verif.Lemmas.Cells
import Verif.Lemmas.Chunks
import Verif.Lemmas.Contract
import Verif.Lemmas.Counted
import Verif.Lemmas.CountedCosts
import Verif.Lemmas.CountedErase
import Verif.Lemmas.CountedOneDim
import Verif.Lemmas.Crop
import Verif.Lemmas.CubicLip
import Verif.Lemmas.CubicMono
import Verif.Lemmas.CubicMoved
import Verif.Lemmas.CubicNear
import Verif.Lemmas.DataRel
import Verif.Lemmas.Decimal
import Verif.Lemmas.DetectAxis
import Verif.Lemmas.DetectRegular
import Verif.Lemmas.DropAxis
import Verif.Lemmas.Dyadic
import Verif.Lemmas.DyadicAxis
import Verif.Lemmas.DyadicCubic
import Verif.Lemmas.EntryPoints
import Verif.Lemmas.Eval
import Verif.Lemmas.EvalCubic
import Verif.Lemmas.ExactCells
import Verif.Lemmas.ExactCore
import Verif.Lemmas.ExactCubic
import Verif.Lemmas.ExactFloat
import Verif.Lemmas.ExactRules
import Verif.Lemmas.ExampleGrids
import Verif.Lemmas.FmaCubic
import Verif.Lemmas.Forms
import Verif.Lemmas.FormsEq
import Verif.Lemmas.FormsNew
import Verif.Lemmas.FormsRec
import Verif.Lemmas.Gradient
import Verif.Lemmas.Ieee
import Verif.Lemmas.IeeeBounds
import Verif.Lemmas.IeeeConst
import Verif.Lemmas.IeeeDropAxis
import Verif.Lemmas.IeeeExamples
import Verif.Lemmas.IeeeMono
import Verif.Lemmas.IeeeNearestOut
import Verif.Lemmas.IeeeNeg
import Verif.Lemmas.IeeeSign
import Verif.Lemmas.IeeeVariants
import Verif.Lemmas.Integral
import Verif.Lemmas.Interpolant
import Verif.Lemmas.JsonDoc
import Verif.Lemmas.JsonDocClasses
import Verif.Lemmas.JsonDocPrefix
import Verif.Lemmas.JsonText
import Verif.Lemmas.Layout
import Verif.Lemmas.NearestMono
import Verif.Lemmas.Nest
import Verif.Lemmas.New
import Verif.Lemmas.NodeErrors
import Verif.Lemmas.NodeFloat
import Verif.Lemmas.OneDim
import Verif.Lemmas.Outcome
import Verif.Lemmas.Pieces
import Verif.Lemmas.Poison
import Verif.Lemmas.PowerOfTwo
import Verif.Lemmas.PythonCall
import Verif.Lemmas.PythonHeap
import Verif.Lemmas.PythonHeapEval
import Verif.Lemmas.PythonHeapFunction
import Verif.Lemmas.PythonHeapInterpn
import Verif.Lemmas.PythonHeapNew
import Verif.Lemmas.PythonHeapRaw
import Verif.Lemmas.PythonLayout
import Verif.Lemmas.PythonShapes
import Verif.Lemmas.RatOps
import Verif.Lemmas.RealData
import Verif.Lemmas.Replace
import Verif.Lemmas.RoundNum
import Verif.Lemmas.Rounding
import Verif.Lemmas.RoundingCubic
import Verif.Lemmas.RoundingCubicRegular
import Verif.Lemmas.RoundingNearest
import Verif.Lemmas.RoundingOneDim
import Verif.Lemmas.RoundingOneDimRegular
import Verif.Lemmas.RoundingRegular
import Verif.Lemmas.RoundingWeights
import Verif.Lemmas.Search
import Verif.Lemmas.SimpleBounds
import Verif.Lemmas.SinglePrecision
import Verif.Lemmas.Smooth
import Verif.Lemmas.Subgrid
import Verif.Lemmas.Superposition
import Verif.Lemmas.Symmetry
import Verif.Lemmas.Taylor
import Verif.Lemmas.TensorAlg
import Verif.Lemmas.Tree
import Verif.Lemmas.Unchecked
import Verif.Lemmas.UncheckedAgree
import Verif.Lemmas.ValueScale
import Verif.Lemmas.ValueScaleOneDim
import Verif.Lemmas.Variation
import Verif.Lemmas.Weights
import Verif.Props.Accuracy
import Verif.Props.Batch
import Verif.Props.Bounds
import Verif.Props.BoundsContract
import Verif.Props.BoundsContractCubic
import Verif.Props.Chunks
import Verif.Props.ClassAccuracy
import Verif.Props.ClassTotal
import Verif.Props.Constructors
import Verif.Props.Contract
import Verif.Props.Convergence
import Verif.Props.ConvergenceFloat
import Verif.Props.Convex
import Verif.Props.Cost
import Verif.Props.CostOneDim
import Verif.Props.Crop
import Verif.Props.CubicExtrapolation
import Verif.Props.CubicLipschitz
import Verif.Props.CubicMonotone
import Verif.Props.CubicMonotoneFloat
import Verif.Props.CubicNodeErrors
import Verif.Props.DataOrder
import Verif.Props.DetectCubic
import Verif.Props.DetectNearest
import Verif.Props.DetectRegular
import Verif.Props.Dispatch
import Verif.Props.DropAxis
import Verif.Props.EntryPoints
import Verif.Props.ExactFloat
import Verif.Props.FixedPoint
import Verif.Props.FixedPointOneDim
import Verif.Props.FlatRecursive
import Verif.Props.FloatMotion
import Verif.Props.FmaAgree
import Verif.Props.Gradient
import Verif.Props.GridKinds
import Verif.Props.IeeeAccuracy
import Verif.Props.IeeeBounds
import Verif.Props.IeeeCubic
import Verif.Props.IeeeCubicOut
import Verif.Props.IeeeJson
import Verif.Props.IeeeLinearOut
import Verif.Props.IeeeLinspace
import Verif.Props.IeeeMonotone
import Verif.Props.IeeeNearest
import Verif.Props.IeeeNearestOut
import Verif.Props.IeeeNegation
import Verif.Props.IeeeOneDim
import Verif.Props.IeeeRange
import Verif.Props.IeeeSign
import Verif.Props.IeeeVariants
import Verif.Props.IeeeVariantsRegular
import Verif.Props.InRange
import Verif.Props.InputErrors
import Verif.Props.Integral
import Verif.Props.Interpolant
import Verif.Props.Inverse
import Verif.Props.InverseFloat
import Verif.Props.JsonDoc
import Verif.Props.JsonText
import Verif.Props.Jump
import Verif.Props.Kernel
import Verif.Props.KernelFloat
import Verif.Props.Layout
import Verif.Props.Limits
import Verif.Props.Linearity
import Verif.Props.Linearize
import Verif.Props.Lipschitz
import Verif.Props.Locality
import Verif.Props.Methods
import Verif.Props.MethodsFloat
import Verif.Props.MethodsNearest
import Verif.Props.MulticubicExact
import Verif.Props.MultilinearExact
import Verif.Props.NearestMono
import Verif.Props.NearestVariation
import Verif.Props.NoPanic
import Verif.Props.NodeErrors
import Verif.Props.NodeFloat
import Verif.Props.OneDim
import Verif.Props.OneDimExact
import Verif.Props.PowerOfTwo
import Verif.Props.Python
import Verif.Props.PythonAgree
import Verif.Props.PythonClasses
import Verif.Props.PythonHeap
import Verif.Props.PythonLayout
import Verif.Props.PythonShapes
import Verif.Props.PythonTotal
import Verif.Props.Rounding
import Verif.Props.RoundingCubic
import Verif.Props.RoundingCubicRegular
import Verif.Props.RoundingNearest
import Verif.Props.RoundingRegular
import Verif.Props.Search
import Verif.Props.Shape
import Verif.Props.SinglePrecision
import Verif.Props.Slices
import Verif.Props.Smooth
import Verif.Props.Special
import Verif.Props.Subgrid
import Verif.Props.Superposition
import Verif.Props.Symmetry
import Verif.Props.TotalError
import Verif.Props.TotalErrorPython
import Verif.Props.Unchecked
import Verif.Props.UncheckedNew
import Verif.Props.Utils
import Verif.Props.ValueScale
import Verif.Props.ValueScaleOneDim
import Verif.Props.Variation
import Verif.Props.VariationFloat
import Verif.Props.Weights
import Verif.Props.WeightsFloat
