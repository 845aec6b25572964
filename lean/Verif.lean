import Verif.Core.Float
import Verif.Core.IEEE
import Verif.Core.Ideal
import Verif.Core.Res
import Verif.Core.Round
import Verif.Model.Colorspace
import Verif.Model.Convert
import Verif.Model.Error
import Verif.Model.Filter
import Verif.Model.Image
import Verif.Model.Io
import Verif.Model.Math
import Verif.Model.Median
import Verif.Model.Morphology
import Verif.Model.Par
import Verif.Model.Simd
import Verif.Model.Tone
import Verif.Model.Transform
import Verif.Model.Util
import Verif.Spec.Brighter
import Verif.Spec.Builds
import Verif.Spec.Bytes
import Verif.Spec.Channels
import Verif.Spec.Demo
import Verif.Spec.Histories
import Verif.Spec.Image
import Verif.Spec.Moves
import Verif.Spec.Orderly
import Verif.Spec.Polarity
import Verif.Spec.Positions
import Verif.Spec.Shapes
import Verif.Spec.Tiling
import Verif.Spec.Transpose
import Verif.Proofs.Approx
import Verif.Proofs.ApproxR
import Verif.Proofs.Brighter
import Verif.Proofs.Builds
import Verif.Proofs.Builds2
import Verif.Proofs.Builds3
import Verif.Proofs.Colour
import Verif.Proofs.ErrSum
import Verif.Proofs.ExactSum
import Verif.Proofs.Fill
import Verif.Proofs.IEEE
import Verif.Proofs.Image
import Verif.Proofs.ImageOps
import Verif.Proofs.Loops
import Verif.Proofs.MedianBlock
import Verif.Proofs.MedianHist
import Verif.Proofs.MedianRows
import Verif.Proofs.MedianRun
import Verif.Proofs.MedianScan
import Verif.Proofs.Moves
import Verif.Proofs.NoErr
import Verif.Proofs.Orderly
import Verif.Proofs.Orderly2
import Verif.Proofs.Par
import Verif.Proofs.PartialHist
import Verif.Proofs.Polarity
import Verif.Proofs.RealSum
import Verif.Proofs.Res
import Verif.Proofs.RndShift
import Verif.Proofs.Scatter
import Verif.Proofs.Shapes
import Verif.Proofs.Shapes2
import Verif.Proofs.Shapes3
import Verif.Proofs.Simd
import Verif.Proofs.Sqrt
import Verif.Proofs.SubImage
import Verif.Proofs.TrimBlock
import Verif.Proofs.TrimConst
import Verif.Proofs.TrimMean
import Verif.Proofs.TrimTop
import Verif.Proofs.TrimTwo
import Verif.Proofs.TrimTwoRun
import Verif.Props.Bilateral
import Verif.Props.Bilateral2
import Verif.Props.Bilateral3
import Verif.Props.BilateralErr
import Verif.Props.BilateralErr2
import Verif.Props.BilateralErr3
import Verif.Props.BilateralHole
import Verif.Props.Brighter
import Verif.Props.Brighter2
import Verif.Props.Builds
import Verif.Props.Bytes
import Verif.Props.Bytes2
import Verif.Props.Bytes3
import Verif.Props.Bytes4
import Verif.Props.Bytes5
import Verif.Props.Bytes6
import Verif.Props.Bytes7
import Verif.Props.Channels
import Verif.Props.Compose
import Verif.Props.Convert
import Verif.Props.CubicErr
import Verif.Props.Dyadic
import Verif.Props.Edge
import Verif.Props.EdgeF32
import Verif.Props.Enlarge
import Verif.Props.EqLevels
import Verif.Props.Equalize
import Verif.Props.EqualizeF32
import Verif.Props.Extremum
import Verif.Props.Filter
import Verif.Props.Filter2
import Verif.Props.Filter3
import Verif.Props.Filter4
import Verif.Props.Filter5
import Verif.Props.Filter6
import Verif.Props.FilterErr
import Verif.Props.FilterErr2
import Verif.Props.Gamma
import Verif.Props.GaussBlur
import Verif.Props.GaussBlur2
import Verif.Props.GaussErr
import Verif.Props.Gray
import Verif.Props.GrayF32
import Verif.Props.Histogram
import Verif.Props.Histories
import Verif.Props.Hsv
import Verif.Props.HsvErr
import Verif.Props.HsvF32
import Verif.Props.HsvReal
import Verif.Props.HsvRound
import Verif.Props.Image
import Verif.Props.Info
import Verif.Props.Io
import Verif.Props.Kernels
import Verif.Props.Lab
import Verif.Props.Lab2
import Verif.Props.LabBackErr
import Verif.Props.LabErr
import Verif.Props.LanczosErr
import Verif.Props.Linear
import Verif.Props.LinearErr
import Verif.Props.MeanErr
import Verif.Props.Median
import Verif.Props.Median2
import Verif.Props.Median3
import Verif.Props.Mirror
import Verif.Props.Mirror2
import Verif.Props.Morphology
import Verif.Props.Morphology2
import Verif.Props.Morphology3
import Verif.Props.Morphology4
import Verif.Props.Moves
import Verif.Props.Numbers
import Verif.Props.Orderly
import Verif.Props.Par
import Verif.Props.PartialHist
import Verif.Props.Polarity
import Verif.Props.Positions
import Verif.Props.Rotate
import Verif.Props.RotateExact
import Verif.Props.RotateF32
import Verif.Props.Scale
import Verif.Props.Scale2
import Verif.Props.Scale3
import Verif.Props.Scale4
import Verif.Props.Scale5
import Verif.Props.Scale6
import Verif.Props.Scale7
import Verif.Props.Scale8
import Verif.Props.Scale9
import Verif.Props.ScaleErr
import Verif.Props.Shear
import Verif.Props.ShearF32
import Verif.Props.Shrink
import Verif.Props.Simd
import Verif.Props.SimdGray
import Verif.Props.SubImage
import Verif.Props.Summed
import Verif.Props.SummedErr
import Verif.Props.Superimpose
import Verif.Props.Tiling
import Verif.Props.Tiling2
import Verif.Props.Tone
import Verif.Props.Tone2
import Verif.Props.Transform
import Verif.Props.Transpose
import Verif.Props.Transpose2
import Verif.Props.Transpose3
import Verif.Props.TrimMean
import Verif.Props.TrimMean2
import Verif.Props.TrimMean3
import Verif.Props.Trip
import Verif.Props.Trip2
import Verif.Props.Trip3
import Verif.Props.Trip4
import Verif.Props.UnlinErr
import Verif.Props.Util
