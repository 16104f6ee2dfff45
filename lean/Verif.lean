import Verif.Spec
import Verif.SpecGrad
import Verif.SpecRows
import Verif.Model.Adam
import Verif.Model.Catalogue
import Verif.Model.CompGrad
import Verif.Model.CompLoss
import Verif.Model.Diagnostics
import Verif.Model.Fitter
import Verif.Model.Float32
import Verif.Model.Float32Adam
import Verif.Model.Float32Catalog
import Verif.Model.Float32Cov
import Verif.Model.Float32Fit
import Verif.Model.Float32Mean
import Verif.Model.Float32Moments
import Verif.Model.Float32Peak
import Verif.Model.Float32Trip
import Verif.Model.IO
import Verif.Model.Jvp
import Verif.Model.Kernels
import Verif.Model.Loaders
import Verif.Model.MC
import Verif.Model.Measure
import Verif.Model.NamedTuple
import Verif.Model.Normal
import Verif.Model.Num
import Verif.Model.Optim
import Verif.Model.Pipeline
import Verif.Model.Pop
import Verif.Model.PopGrad
import Verif.Model.PopLoss
import Verif.Model.PopParams
import Verif.Model.Random
import Verif.Model.Samples
import Verif.Model.Scripts
import Verif.Model.TPeak
import Verif.Model.Targets
import Verif.Model.Text
import Verif.Model.Utils
import Verif.Lemmas.Adam
import Verif.Lemmas.Catalogue
import Verif.Lemmas.Chord
import Verif.Lemmas.CompLoss
import Verif.Lemmas.Dual
import Verif.Lemmas.FitRev
import Verif.Lemmas.Fitter
import Verif.Lemmas.Float32
import Verif.Lemmas.Float32Adam
import Verif.Lemmas.Float32Cov
import Verif.Lemmas.Float32Err
import Verif.Lemmas.Float32Fit
import Verif.Lemmas.Float32Mean
import Verif.Lemmas.Float32Moments
import Verif.Lemmas.Float32Near
import Verif.Lemmas.Float32Peak
import Verif.Lemmas.Float32Pop
import Verif.Lemmas.Float32Rate
import Verif.Lemmas.Float32Trip
import Verif.Lemmas.HaloFun
import Verif.Lemmas.IO
import Verif.Lemmas.Kernels
import Verif.Lemmas.MC
import Verif.Lemmas.MeasNum
import Verif.Lemmas.Measure
import Verif.Lemmas.NT
import Verif.Lemmas.Normal
import Verif.Lemmas.Optim
import Verif.Lemmas.Pop
import Verif.Lemmas.PopDefault
import Verif.Lemmas.PopFull
import Verif.Lemmas.PopGrad
import Verif.Lemmas.PopGradCov
import Verif.Lemmas.PopGradHom
import Verif.Lemmas.PopGradLoss
import Verif.Lemmas.PopGradReal
import Verif.Lemmas.PopGradReg
import Verif.Lemmas.PopGradTri
import Verif.Lemmas.PopGradWit
import Verif.Lemmas.PopGradWitLoss
import Verif.Lemmas.PopGradWitNum
import Verif.Lemmas.PopGradWitRun
import Verif.Lemmas.PopKernels
import Verif.Lemmas.PopParams
import Verif.Lemmas.PopRound
import Verif.Lemmas.Samples
import Verif.Lemmas.Scripts
import Verif.Lemmas.TPeak
import Verif.Lemmas.Text
import Verif.Lemmas.Utils
import Verif.Lemmas.XR
import Verif.Props.Adam
import Verif.Props.BestMass
import Verif.Props.Bounding
import Verif.Props.Catalogue
import Verif.Props.Collate
import Verif.Props.CompFit
import Verif.Props.CompGrad
import Verif.Props.CompLoss
import Verif.Props.Diagnostics
import Verif.Props.EarlyData
import Verif.Props.ExactFit
import Verif.Props.FitError
import Verif.Props.FitStability
import Verif.Props.Fitter
import Verif.Props.FitterTarget
import Verif.Props.Float32
import Verif.Props.Float32Adam
import Verif.Props.Float32Catalog
import Verif.Props.Float32Cov
import Verif.Props.Float32Fit
import Verif.Props.Float32Grad
import Verif.Props.Float32Mean
import Verif.Props.Float32Moments
import Verif.Props.Float32Peak
import Verif.Props.Float32Pop
import Verif.Props.Float32Rate
import Verif.Props.Float32Trip
import Verif.Props.Formation
import Verif.Props.IO
import Verif.Props.Identify
import Verif.Props.Jvp
import Verif.Props.Kernels
import Verif.Props.Limits
import Verif.Props.Loaders
import Verif.Props.LossKeys
import Verif.Props.MC
import Verif.Props.MCDep
import Verif.Props.MCHist
import Verif.Props.MCMean
import Verif.Props.MeanHist
import Verif.Props.Measure
import Verif.Props.MinPoints
import Verif.Props.Moments
import Verif.Props.NoSpurious
import Verif.Props.Noise
import Verif.Props.Normal
import Verif.Props.NormalGrad
import Verif.Props.NormalPop
import Verif.Props.Optim
import Verif.Props.PeakScatter
import Verif.Props.Pipeline
import Verif.Props.PopGrad
import Verif.Props.PopIdent
import Verif.Props.PopIndep
import Verif.Props.PopKernels
import Verif.Props.PopParams
import Verif.Props.Predict
import Verif.Props.RateSum
import Verif.Props.Redraw
import Verif.Props.ResultHistory
import Verif.Props.SampleLoop
import Verif.Props.SampleNames
import Verif.Props.Samples
import Verif.Props.Scripts
import Verif.Props.SixTimes
import Verif.Props.SlopeBound
import Verif.Props.Slopes
import Verif.Props.TPeak
import Verif.Props.TPeakDensity
import Verif.Props.TPeakLaw
import Verif.Props.Targets
import Verif.Props.Text
import Verif.Props.TrimRobust
import Verif.Props.Unchunk
import Verif.Props.Units
import Verif.Props.Utils
