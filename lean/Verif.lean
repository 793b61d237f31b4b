import Verif.Audit
import Verif.Lemmas.AffineSpline
import Verif.Lemmas.ArcLen
import Verif.Lemmas.Array
import Verif.Lemmas.Bending
import Verif.Lemmas.BestFit
import Verif.Lemmas.Boundary
import Verif.Lemmas.Closest
import Verif.Lemmas.Csaps
import Verif.Lemmas.CsapsSpline
import Verif.Lemmas.CsapsSym
import Verif.Lemmas.CurvFl
import Verif.Lemmas.Curve
import Verif.Lemmas.DiffGeom
import Verif.Lemmas.Dist
import Verif.Lemmas.Index
import Verif.Lemmas.Insert
import Verif.Lemmas.InsertSub
import Verif.Lemmas.Interp
import Verif.Lemmas.LocalSpline
import Verif.Lemmas.Motion
import Verif.Lemmas.NaturalSpline
import Verif.Lemmas.NonFinite
import Verif.Lemmas.Pairs
import Verif.Lemmas.Pchip
import Verif.Lemmas.PolyFit
import Verif.Lemmas.Rank
import Verif.Lemmas.RankFl
import Verif.Lemmas.Refine
import Verif.Lemmas.RescaleSpline
import Verif.Lemmas.ReverseSpline
import Verif.Lemmas.Rnd
import Verif.Lemmas.Savgol
import Verif.Lemmas.SegDist
import Verif.Lemmas.SegDistFl
import Verif.Lemmas.Select
import Verif.Lemmas.Smooth
import Verif.Lemmas.Spline
import Verif.Lemmas.SplineBc
import Verif.Lemmas.SplineEnds
import Verif.Lemmas.SplineError
import Verif.Lemmas.SplineLine
import Verif.Lemmas.SplineSym
import Verif.Lemmas.Taylor
import Verif.Lemmas.Unique
import Verif.Lemmas.Vec
import Verif.Model.ArcLen
import Verif.Model.Binary64
import Verif.Model.Cache
import Verif.Model.Curve
import Verif.Model.Curves
import Verif.Model.DiffGeom
import Verif.Model.Distance
import Verif.Model.FullHistory
import Verif.Model.Geom
import Verif.Model.History
import Verif.Model.Int64
import Verif.Model.Interp
import Verif.Model.Intersect
import Verif.Model.IntersectObj
import Verif.Model.NonFinite
import Verif.Model.Num
import Verif.Model.Plot
import Verif.Model.PointOps
import Verif.Model.Rank
import Verif.Model.Registry
import Verif.Model.Repr
import Verif.Model.Rounded
import Verif.Model.RoundedCross
import Verif.Model.RoundedCurv
import Verif.Model.RoundedDet
import Verif.Model.RoundedDist
import Verif.Model.RoundedExact
import Verif.Model.RoundedGrids
import Verif.Model.RoundedMetrics
import Verif.Model.RoundedPairs
import Verif.Model.RoundedRank
import Verif.Model.RoundedResample
import Verif.Model.RoundedSingular
import Verif.Model.Savgol
import Verif.Model.SegPairs
import Verif.Model.SegmentObj
import Verif.Model.Sequence
import Verif.Model.Smooth
import Verif.Model.Spline
import Verif.Model.Threads
import Verif.Model.Utils
import Verif.Model.Warn
import Verif.Model.WarnMore
import Verif.Np.Array
import Verif.Np.Err
import Verif.Np.Index
import Verif.Props.Accuracy
import Verif.Props.AccuracyCross
import Verif.Props.AccuracyCurv
import Verif.Props.AccuracyFrenet
import Verif.Props.AccuracyLen
import Verif.Props.AccuracyPieces
import Verif.Props.AccuracySavgol
import Verif.Props.AccuracySmooth
import Verif.Props.AccuracySpline
import Verif.Props.Affine
import Verif.Props.AffineInterp
import Verif.Props.Almost
import Verif.Props.ArcLen
import Verif.Props.Bending
import Verif.Props.BestFit
import Verif.Props.Boundary
import Verif.Props.Cache
import Verif.Props.Columns
import Verif.Props.Construct
import Verif.Props.Csaps
import Verif.Props.Csaps2
import Verif.Props.CsapsSym
import Verif.Props.CurveSeg
import Verif.Props.Curves
import Verif.Props.DiffGeom
import Verif.Props.Dims
import Verif.Props.Distance
import Verif.Props.Edit
import Verif.Props.Equality
import Verif.Props.FrenetFormula
import Verif.Props.Grid
import Verif.Props.GridWarn
import Verif.Props.History
import Verif.Props.Hull
import Verif.Props.InsertMore
import Verif.Props.Int64
import Verif.Props.IntInterp
import Verif.Props.Interp
import Verif.Props.Intersect
import Verif.Props.IntersectCurves
import Verif.Props.IntersectMore
import Verif.Props.IntersectObj
import Verif.Props.IntersectParts
import Verif.Props.Keywords
import Verif.Props.KnownCurves
import Verif.Props.Laws
import Verif.Props.LineGrid
import Verif.Props.Local
import Verif.Props.LocalGeom
import Verif.Props.Metrics
import Verif.Props.Metrics2
import Verif.Props.Motion
import Verif.Props.NonFinite
import Verif.Props.Nonsingular
import Verif.Props.Orient
import Verif.Props.Param
import Verif.Props.Parts
import Verif.Props.Plot
import Verif.Props.Position
import Verif.Props.Range
import Verif.Props.Rank
import Verif.Props.Refine
import Verif.Props.Registry
import Verif.Props.Repr
import Verif.Props.Rescale
import Verif.Props.Reversal
import Verif.Props.ReverseGeom
import Verif.Props.ReverseInterp
import Verif.Props.Rounded
import Verif.Props.RoundedCross
import Verif.Props.RoundedCurv
import Verif.Props.RoundedDeriv
import Verif.Props.RoundedDet
import Verif.Props.RoundedDist
import Verif.Props.RoundedExact
import Verif.Props.RoundedGrid
import Verif.Props.RoundedGrids
import Verif.Props.RoundedMetrics
import Verif.Props.RoundedPairs
import Verif.Props.RoundedParam
import Verif.Props.RoundedRank
import Verif.Props.RoundedResample
import Verif.Props.RoundedSeg
import Verif.Props.RoundedSingular
import Verif.Props.RoundedSmooth
import Verif.Props.Sampling
import Verif.Props.Savgol
import Verif.Props.SegDist
import Verif.Props.Segment
import Verif.Props.SegmentObj
import Verif.Props.Select
import Verif.Props.Sequence
import Verif.Props.Shorten
import Verif.Props.Slopes
import Verif.Props.SmallFacts
import Verif.Props.Smooth
import Verif.Props.SpeedGrid
import Verif.Props.Spline
import Verif.Props.SplineBc
import Verif.Props.SplineEnds
import Verif.Props.SplineShape
import Verif.Props.SplineSym
import Verif.Props.Stable
import Verif.Props.StablePchip
import Verif.Props.StableResample
import Verif.Props.StableSpline
import Verif.Props.Threads
import Verif.Props.Units
import Verif.Props.Univariate
import Verif.Props.UnivariateSym
import Verif.Props.Warn
import Verif.Props.WarnMore
import Verif.Spec.Affine
import Verif.Spec.ArcLen
import Verif.Spec.Backwards
import Verif.Spec.BestFit
import Verif.Spec.Boundary
import Verif.Spec.Curve
import Verif.Spec.Curves
import Verif.Spec.DiffGeom
import Verif.Spec.Geom
import Verif.Spec.Index
import Verif.Spec.Interp
import Verif.Spec.Intersect
import Verif.Spec.Metric
import Verif.Spec.Motion
import Verif.Spec.Plot
import Verif.Spec.Position
import Verif.Spec.Range
import Verif.Spec.Rank
import Verif.Spec.Registry
import Verif.Spec.Rounding
import Verif.Spec.Savgol
import Verif.Spec.Smooth
import Verif.Spec.Smoothing
import Verif.Spec.Spline
import Verif.Spec.SplineBc
import Verif.Spec.SplineEnds
import Verif.Spec.SplineSym
import Verif.Spec.Univariate
import Verif.Spec.Warn
import Verif.Tests.Angle
import Verif.Tests.Curve
import Verif.Tests.Exec
import Verif.Tests.Intersect
import Verif.Tests.Segment
