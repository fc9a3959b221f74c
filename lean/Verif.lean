import Verif.Py
import Verif.Uni.Num
import Verif.Uni.Rounding
import Verif.Uni.DateUtils
import Verif.Spec.Double
import Verif.Uni.Double
import Verif.Uni.FillUp
import Verif.Uni.Kernel
import Verif.Uni.Env
import Verif.Uni.Helpers
import Verif.Uni.Detect
import Verif.Uni.Models
import Verif.Uni.Period
import Verif.Uni.Margins
import Verif.Uni.Predict
import Verif.Uni.Inv
import Verif.Demo
import Verif.Spec.Calendar
import Verif.Spec.Request
import Verif.Props.Dates
import Verif.Props.Gate
import Verif.Uni.Run
import Verif.Spec.Fill
import Verif.Props.Fill
import Verif.Props.Rows
import Verif.Props.Trace
import Verif.Props.Margin
import Verif.Spec.Output
import Verif.Props.Output
import Verif.Props.Periods
import Verif.Uni.Blind
import Verif.Props.Sens
import Verif.Uni.Complete
import Verif.Props.Calls
import Verif.Props.Reject
import Verif.Props.Sparse
import Verif.Props.Count
import Verif.Spec.Kernel
import Verif.Props.Score
import Verif.Props.Median
import Verif.Props.Mad
import Verif.Props.Select
import Verif.Props.Filters
import Verif.Props.Gcv
import Verif.Props.Delta
import Verif.Multi.Frame
import Verif.Multi.Util
import Verif.Multi.Dataset
import Verif.Multi.Module
import Verif.Multi.Model
import Verif.Multi.Lemmas
import Verif.Multi.Demo
import Verif.Spec.Table
import Verif.Props.Table
import Verif.Multi.NetLemmas
import Verif.Spec.Multi
import Verif.Multi.Infer
import Verif.Multi.Inv
import Verif.Multi.Run
import Verif.Multi.DemoNet
import Verif.Multi.Train
import Verif.Props.MultiPredict
import Verif.Props.MultiInterp
import Verif.Multi.Fit
import Verif.Props.MultiFit
import Verif.Props.MultiLoss
import Verif.Props.MultiCalls
import Verif.Props.MultiTrain
import Verif.Props.MultiTrained
import Verif.Props.MultiUnread
import Verif.Props.MultiOffset
import Verif.Props.MultiForget
import Verif.Props.MultiOutcome
import Verif.Props.MultiEnds
import Verif.Props.MultiWeights
import Verif.Props.MultiTotal
import Verif.Props.Detectors
import Verif.Spec.Period
import Verif.Props.Simple
import Verif.Uni.CriticalTable
import Verif.Uni.Lib
import Verif.Spec.Numeric
import Verif.Props.Lib
import Verif.Props.LibReal
import Verif.Uni.FillMethods
import Verif.Spec.FillMethods
import Verif.Props.FillMethods
import Verif.Props.FillValues
import Verif.Props.FillPolicy
import Verif.Props.FillAgree
import Verif.Uni.Extra
import Verif.Spec.Extra
import Verif.Props.Pattern
import Verif.Props.Extra
import Verif.Uni.DateFormat
import Verif.Spec.DateFormat
import Verif.Props.DateFormat
import Verif.Multi.Results
import Verif.Props.MultiResults
import Verif.Spec.Network
import Verif.Spec.Training
import Verif.Props.MultiNet
import Verif.Uni.MarginsFloat
import Verif.Props.FloatMargins
import Verif.Props.Streaming
import Verif.Props.Shift
import Verif.Props.Rename
import Verif.Props.Uniform
import Verif.Spec.Modes
import Verif.Props.Latest
import Verif.Props.NanRatio
import Verif.Spec.Answers
import Verif.Props.Answers
import Verif.Props.Answered
import Verif.Props.AnsweredLib
import Verif.Props.FixedGaps
import Verif.Props.Options
import Verif.Props.Unused
import Verif.Props.Units
import Verif.Props.MultiLevel
import Verif.Props.MultiHorizon
import Verif.Props.Labels
import Verif.Props.Ratio
import Verif.Props.MultiEpochs
import Verif.Props.Threshold
import Verif.Props.Mirror
import Verif.Props.MirrorLib
import Verif.Props.Versions
import Verif.Props.Scaled
import Verif.Props.Degrees
import Verif.Props.DegreesLib
import Verif.Props.Alpha
import Verif.Props.AlphaLib
import Verif.Props.RatioModels
import Verif.Props.MultiUnit
