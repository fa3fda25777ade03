import Verif.Model.Args
import Verif.Model.Audio
import Verif.Model.Cli
import Verif.Model.Cpx
import Verif.Model.DefaultSvr
import Verif.Model.Exit
import Verif.Model.Fft
import Verif.Model.Filter
import Verif.Model.Manager
import Verif.Model.Mat
import Verif.Model.Nsim
import Verif.Model.Num
import Verif.Model.Output
import Verif.Model.Patch
import Verif.Model.Selector
import Verif.Model.Spectrogram
import Verif.Model.Svr
import Verif.Num.Accurate
import Verif.Num.Binary64
import Verif.Num.Binary64Accurate
import Verif.Num.Binary64Bits
import Verif.Num.Binary64Libm
import Verif.Num.Binary64Unit
import Verif.Num.Bits
import Verif.Num.Dft
import Verif.Num.Float
import Verif.Num.Ieee
import Verif.Num.Libm
import Verif.Num.Real
import Verif.Num.Unit
import Verif.Spec.Args
import Verif.Spec.Cli
import Verif.Spec.Columns
import Verif.Spec.Decibel
import Verif.Spec.Digits
import Verif.Spec.Disk
import Verif.Spec.Envelope
import Verif.Spec.Filter
import Verif.Spec.Finite
import Verif.Spec.Gammatone
import Verif.Spec.Grid
import Verif.Spec.History
import Verif.Spec.Json
import Verif.Spec.Lag
import Verif.Spec.Match
import Verif.Spec.Nsim
import Verif.Spec.Numbers
import Verif.Spec.Output
import Verif.Spec.Pipeline
import Verif.Spec.Rejection
import Verif.Spec.Signal
import Verif.Spec.Stats
import Verif.Spec.Vad
import Verif.Lemmas.Aggregate
import Verif.Lemmas.Basic
import Verif.Lemmas.Conv
import Verif.Lemmas.DftNorm
import Verif.Lemmas.Envelope
import Verif.Lemmas.Errors
import Verif.Lemmas.Extremum
import Verif.Lemmas.Fine
import Verif.Lemmas.First
import Verif.Lemmas.Gammatone
import Verif.Lemmas.History
import Verif.Lemmas.Ieee
import Verif.Lemmas.IeeeAlign
import Verif.Lemmas.IeeeBand
import Verif.Lemmas.IeeeBestLag
import Verif.Lemmas.IeeeBound
import Verif.Lemmas.IeeeCell
import Verif.Lemmas.IeeeCentre
import Verif.Lemmas.IeeeCompare
import Verif.Lemmas.IeeeCpx
import Verif.Lemmas.IeeeDelay
import Verif.Lemmas.IeeeDft
import Verif.Lemmas.IeeeDp
import Verif.Lemmas.IeeeEnvelope
import Verif.Lemmas.IeeeErb
import Verif.Lemmas.IeeeFilter
import Verif.Lemmas.IeeeFine
import Verif.Lemmas.IeeeFormula
import Verif.Lemmas.IeeeGain
import Verif.Lemmas.IeeeHilbert
import Verif.Lemmas.IeeeLag
import Verif.Lemmas.IeeeLevel
import Verif.Lemmas.IeeeLoad
import Verif.Lemmas.IeeeMatch
import Verif.Lemmas.IeeeNear
import Verif.Lemmas.IeeeNsim
import Verif.Lemmas.IeeeOpposite
import Verif.Lemmas.IeeePool
import Verif.Lemmas.IeeePrepare
import Verif.Lemmas.IeeeQuality
import Verif.Lemmas.IeeeScale
import Verif.Lemmas.IeeeSelf
import Verif.Lemmas.IeeeSelfRun
import Verif.Lemmas.IeeeSelfTotal
import Verif.Lemmas.IeeeSilent
import Verif.Lemmas.IeeeSpacing
import Verif.Lemmas.IeeeSpectro
import Verif.Lemmas.IeeeStd
import Verif.Lemmas.IeeeSum
import Verif.Lemmas.IeeeTime
import Verif.Lemmas.IeeeTotal
import Verif.Lemmas.IeeeWelford
import Verif.Lemmas.IeeeXcorr
import Verif.Lemmas.Match
import Verif.Lemmas.MatchReal
import Verif.Lemmas.NearPerfect
import Verif.Lemmas.NoShape
import Verif.Lemmas.NsimReal
import Verif.Lemmas.Patches
import Verif.Lemmas.Perfect
import Verif.Lemmas.Prepare
import Verif.Lemmas.RealCast
import Verif.Lemmas.SelfLag
import Verif.Lemmas.Shape
import Verif.Lemmas.Spectro
import Verif.Lemmas.Steady
import Verif.Lemmas.SvrBound
import Verif.Lemmas.SvrCheck
import Verif.Lemmas.SvrData
import Verif.Lemmas.SvrPoints
import Verif.Lemmas.SvrQuad
import Verif.Lemmas.SvrReal
import Verif.Lemmas.SvrUpper
import Verif.Lemmas.SvrValue
import Verif.Lemmas.Total
import Verif.Lemmas.Xcorr
import Verif.Props.AggregateRounded
import Verif.Props.Align
import Verif.Props.AllNumbers
import Verif.Props.Args
import Verif.Props.Bands
import Verif.Props.Batch
import Verif.Props.Builds
import Verif.Props.BuildsRelease
import Verif.Props.Channels
import Verif.Props.Cli
import Verif.Props.CliOutput
import Verif.Props.ClosenessRounded
import Verif.Props.ConvRounded
import Verif.Props.Count
import Verif.Props.DecibelRounded
import Verif.Props.DefaultModel
import Verif.Props.Delay
import Verif.Props.DelayRounded
import Verif.Props.DelayedCopy
import Verif.Props.DeviationRounded
import Verif.Props.Drift
import Verif.Props.DriftRounded
import Verif.Props.Energies
import Verif.Props.Envelope
import Verif.Props.ErrorsExactly
import Verif.Props.ExactlyWhen
import Verif.Props.ExactlyWhenRounded
import Verif.Props.Exit
import Verif.Props.Files
import Verif.Props.Filter
import Verif.Props.FilterIeee
import Verif.Props.FilterRounded
import Verif.Props.FormulaRounded
import Verif.Props.GainRounded
import Verif.Props.Gammatone
import Verif.Props.Ieee
import Verif.Props.InvertedCopy
import Verif.Props.InvertedRounded
import Verif.Props.Lag
import Verif.Props.Level
import Verif.Props.LevelRounded
import Verif.Props.Loading
import Verif.Props.LoadingIeee
import Verif.Props.LongFiles
import Verif.Props.Manager
import Verif.Props.Mapping
import Verif.Props.Match
import Verif.Props.NoFailure
import Verif.Props.NoFailureIeee
import Verif.Props.Nsim
import Verif.Props.NsimFormula
import Verif.Props.NsimRounded
import Verif.Props.Optimal
import Verif.Props.OptimalRounded
import Verif.Props.Options
import Verif.Props.OutputOptions
import Verif.Props.Patches
import Verif.Props.PatchesRounded
import Verif.Props.PerfectMeansEqual
import Verif.Props.Pipeline
import Verif.Props.Polarity
import Verif.Props.Pooled
import Verif.Props.Prepare
import Verif.Props.PrepareIeee
import Verif.Props.PrepareRounded
import Verif.Props.Quality
import Verif.Props.QualityRounded
import Verif.Props.Quiet
import Verif.Props.Radius
import Verif.Props.RadiusMonotone
import Verif.Props.RadiusRounded
import Verif.Props.Result
import Verif.Props.Self
import Verif.Props.SelfDelayRounded
import Verif.Props.SelfRounded
import Verif.Props.SelfRunRounded
import Verif.Props.ShapesAgree
import Verif.Props.SilenceRounded
import Verif.Props.SilentDegraded
import Verif.Props.SilentReference
import Verif.Props.Sizes
import Verif.Props.SmallDifferences
import Verif.Props.TimesRounded
import Verif.Props.TrailingSilence
import Verif.Props.VadRounded
import Verif.Props.WidebandScore
import Verif.Props.Window
import Verif.Props.WindowRounded
import Verif.Props.Witness
import Verif.Props.Witness2
import Verif.Props.Witness3
