import Verif.Lemmas.Arctan2
import Verif.Lemmas.Conics
import Verif.Lemmas.Dem
import Verif.Lemmas.Frontend
import Verif.Lemmas.Grouping
import Verif.Lemmas.Hyperbola
import Verif.Lemmas.Pca
import Verif.Lemmas.Pca2
import Verif.Lemmas.Rounding
import Verif.Lemmas.SqSvdExists
import Verif.Lemmas.Stereonet
import Verif.Lemmas.StrikeDip
import Verif.Lemmas.Svd
import Verif.Lemmas.SvdExists
import Verif.Lemmas.SvdScale
import Verif.Lemmas.Trig
import Verif.Lemmas.Witness
import Verif.Model.AngleErrors
import Verif.Model.BandArtist
import Verif.Model.Clipboard
import Verif.Model.Conics
import Verif.Model.ConjugateConics
import Verif.Model.Coordinates
import Verif.Model.Dem
import Verif.Model.DemParts
import Verif.Model.Display
import Verif.Model.DisplayUtil
import Verif.Model.EllipseStyle
import Verif.Model.ErrorAxes
import Verif.Model.ErrorMapping
import Verif.Model.Extras
import Verif.Model.FitText
import Verif.Model.Frontend
import Verif.Model.FrontendShapes
import Verif.Model.FrontendStereonet
import Verif.Model.FrontendView
import Verif.Model.GeomUtil
import Verif.Model.GroupDistance
import Verif.Model.Grouping
import Verif.Model.HorizontalLine
import Verif.Model.Hyperbola
import Verif.Model.HyperbolaOptions
import Verif.Model.Inherited
import Verif.Model.LabelsObject
import Verif.Model.Linear
import Verif.Model.Mapping
import Verif.Model.Missing
import Verif.Model.NbArguments
import Verif.Model.NbExtension
import Verif.Model.NetData
import Verif.Model.NetMarks
import Verif.Model.NotebookUi
import Verif.Model.Num
import Verif.Model.Page
import Verif.Model.Panels
import Verif.Model.Pca
import Verif.Model.Pca2
import Verif.Model.Pca2Options
import Verif.Model.PcaConics
import Verif.Model.PcaState
import Verif.Model.ReconHash
import Verif.Model.Reconstructed
import Verif.Model.Rectangle
import Verif.Model.Rotations
import Verif.Model.RoundedErrors
import Verif.Model.RoundedFit
import Verif.Model.RoundedNet
import Verif.Model.RoundedRegression
import Verif.Model.RoundedTurn
import Verif.Model.Rounding
import Verif.Model.SheetPlot
import Verif.Model.Shells
import Verif.Model.SideView
import Verif.Model.Similarity
import Verif.Model.SlopeEllipse
import Verif.Model.Statistics
import Verif.Model.Stereonet
import Verif.Model.StoredSheet
import Verif.Model.TestIO
import Verif.Model.Versor
import Verif.Model.Webapp
import Verif.Props.Accumulate
import Verif.Props.AlignedFigure
import Verif.Props.AngleErrors
import Verif.Props.AsymptoteCone
import Verif.Props.Attenuation
import Verif.Props.BandArtist
import Verif.Props.BestSlopes
import Verif.Props.BinghamMode
import Verif.Props.BinghamNorm
import Verif.Props.BootstrapMeans
import Verif.Props.Clipboard
import Verif.Props.Confirm
import Verif.Props.ConicAxes
import Verif.Props.ConicEllipses
import Verif.Props.ConicSpheres
import Verif.Props.ConicTypes
import Verif.Props.Conics
import Verif.Props.ConjugateConics
import Verif.Props.Coordinates
import Verif.Props.CopiedNumbers
import Verif.Props.Coverage
import Verif.Props.CurveDensity
import Verif.Props.Dem
import Verif.Props.DemAccuracy
import Verif.Props.DemCurved
import Verif.Props.DemEdges
import Verif.Props.DemFit
import Verif.Props.DemLines
import Verif.Props.DemNearest
import Verif.Props.DemParts
import Verif.Props.Display
import Verif.Props.DisplayUtil
import Verif.Props.DrawnBand
import Verif.Props.DualTypes
import Verif.Props.EllipseStyle
import Verif.Props.EndToEnd
import Verif.Props.ErrorAxes
import Verif.Props.ErrorKinds
import Verif.Props.ErrorMapping
import Verif.Props.ErrorOrder
import Verif.Props.ErrorSection
import Verif.Props.ErrorShapes
import Verif.Props.ErrorStability
import Verif.Props.Exaggeration
import Verif.Props.Extras
import Verif.Props.FitText
import Verif.Props.FrontendAxes
import Verif.Props.FrontendCompare
import Verif.Props.FrontendDensity
import Verif.Props.FrontendEllipses
import Verif.Props.FrontendGirdle
import Verif.Props.FrontendHyperbola
import Verif.Props.FrontendPoleDensity
import Verif.Props.FrontendPoles
import Verif.Props.FrontendShapes
import Verif.Props.FrontendSigns
import Verif.Props.FrontendStereonet
import Verif.Props.FrontendView
import Verif.Props.GeomUtil
import Verif.Props.GroupBeds
import Verif.Props.GroupConsistent
import Verif.Props.GroupCopies
import Verif.Props.GroupDistance
import Verif.Props.GroupErrors
import Verif.Props.GroupInformation
import Verif.Props.Grouping
import Verif.Props.HorizontalLine
import Verif.Props.Hyperbola
import Verif.Props.HyperbolaOptions
import Verif.Props.Inherited
import Verif.Props.LabelsObject
import Verif.Props.LabelsShown
import Verif.Props.Linear
import Verif.Props.LinearEllipse
import Verif.Props.LinearOrientation
import Verif.Props.Mapping
import Verif.Props.Missing
import Verif.Props.NbArguments
import Verif.Props.NbExtension
import Verif.Props.NetData
import Verif.Props.NetMarks
import Verif.Props.NoiseEstimate
import Verif.Props.NotebookUi
import Verif.Props.OpenCurves
import Verif.Props.Outlier
import Verif.Props.OutlierErrors
import Verif.Props.Page
import Verif.Props.Panels
import Verif.Props.Pca2
import Verif.Props.Pca2Options
import Verif.Props.Pca2Unique
import Verif.Props.PcaAngles
import Verif.Props.PcaConics
import Verif.Props.PcaConicsMoved
import Verif.Props.PcaCovariance
import Verif.Props.PcaEllipse
import Verif.Props.PcaExact
import Verif.Props.PcaFit
import Verif.Props.PcaGroups
import Verif.Props.PcaInvariance
import Verif.Props.PcaMotion
import Verif.Props.PcaRake
import Verif.Props.PcaState
import Verif.Props.PoleDensity
import Verif.Props.ReconHash
import Verif.Props.Reconstructed
import Verif.Props.Rectangle
import Verif.Props.Rotations
import Verif.Props.RoundedErrors
import Verif.Props.RoundedFit
import Verif.Props.RoundedNet
import Verif.Props.RoundedOrder
import Verif.Props.RoundedRegression
import Verif.Props.RoundedTurn
import Verif.Props.Rounding
import Verif.Props.RoundingAngle
import Verif.Props.SameHyperbola
import Verif.Props.SheetPlot
import Verif.Props.SheetView
import Verif.Props.Shells
import Verif.Props.SideElements
import Verif.Props.SideView
import Verif.Props.Similarity
import Verif.Props.SlopeCoverage
import Verif.Props.SlopeEllipse
import Verif.Props.Stability
import Verif.Props.StandardErrors
import Verif.Props.Statistics
import Verif.Props.Stereonet
import Verif.Props.StereonetDual
import Verif.Props.StoredSheet
import Verif.Props.Supplements
import Verif.Props.TestIO
import Verif.Props.TestIdentities
import Verif.Props.TiltAngles
import Verif.Props.TotalLeastSquares
import Verif.Props.TurnedCurves
import Verif.Props.TypedNumbers
import Verif.Props.Versor
import Verif.Props.Webapp
import Verif.Props.WeightLimit
import Verif.Props.Weighted
import Verif.Props.WeightedErrors
