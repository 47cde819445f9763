import Verif.Props.Endian
import Verif.Props.IO
import Verif.Props.Mem
import Verif.Props.File
import Verif.Props.Client
import Verif.Props.Null
import Verif.Props.Fixed
import Verif.Props.Signature
import Verif.Props.Header
import Verif.Props.DateTime
import Verif.Props.Context
import Verif.Props.Open
import Verif.Props.OpenedHandle
import Verif.Props.Table
import Verif.Props.Reread
import Verif.Props.Process
import Verif.Props.GlobalCalls
import Verif.Props.Curves
import Verif.Props.CurvesReal
import Verif.Props.CurvesNaN
import Verif.Props.Constants
import Verif.Props.SignatureValues
import Verif.Props.Handlers
import Verif.Props.Records
import Verif.Props.Assemble
import Verif.Props.TwoPasses
import Verif.Props.Requests
import Verif.Props.Threads
import Verif.Props.OwnContexts
import Verif.Props.QuietFile
import Verif.Props.NewProfile
import Verif.Props.CurvesInverse
import Verif.Props.Close
import Verif.Props.Torn
import Verif.Props.DocExamples
import Verif.Props.StdVersion
import Verif.Props.CurvesSigmoidBack
import Verif.Props.CurvesForth
import Verif.Props.CurvesSigned
import Verif.Props.CurvesForthSpecial
import Verif.Props.CurvesUnit
import Verif.Props.CurvesUnitBand
import Verif.Props.CurvesBackSpecial
import Verif.Props.CurvesIcc
import Verif.Props.CurveValues
import Verif.Props.CurvesCont
import Verif.Props.CurvesFinite
import Verif.Props.CurvesRound
import Verif.Props.CurvesFiniteMore
import Verif.Props.CurvesRoundInv
import Verif.Props.CurvesNearest
import Verif.Props.FloatSpecial
import Verif.Props.CurvesAccuracy
import Verif.Props.CurvesAccuracyLog
import Verif.Props.CurvesBack
import Verif.Props.CurvesBackMore
import Verif.Props.Debug
import Verif.Props.DebugText
import Verif.Props.OwnTests
import Verif.Props.Testing
