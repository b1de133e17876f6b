import Verif.Basic
import Verif.GoStr
import Verif.Regex
import Verif.Patterns
import Verif.Calendar
import Verif.Types
import Verif.Common
import Verif.BigFloat
import Verif.Level0
import Verif.Level1
import Verif.Level2
import Verif.Parser
import Verif.Cmp
import Verif.Json
import Verif.Cmd
import Verif.Tests
import Verif.TestsReadme
import Verif.Spec
import Verif.LemmasCal
import Verif.LemmasStr
import Verif.LemmasTime
import Verif.LemmasRe
import Verif.LemmasFlat
import Verif.LemmasYMD
import Verif.LemmasSpan
import Verif.LemmasDate0
import Verif.LemmasLang
import Verif.PropsDate
import Verif.LemmasInv
import Verif.LemmasErr
import Verif.LemmasX
import Verif.LemmasWf
import Verif.LemmasCap
import Verif.PropsGeneral
import Verif.PropsCmp
import Verif.PropsMisc
import Verif.LemmasDisp
import Verif.LemmasIv
import Verif.LemmasSet
import Verif.PropsSet
import Verif.PropsWf
import Verif.LemmasSeason
import Verif.PropsLevel1
import Verif.LemmasDT
import Verif.PropsTime
import Verif.LemmasL2
import Verif.PropsLevel2
import Verif.LemmasQual
import Verif.PropsQual
import Verif.PropsSig
import Verif.LemmasPanic
import Verif.LemmasExp
import Verif.PropsExp
import Verif.PropsPanic
import Verif.PropsX
import Verif.PropsPrec
import Verif.PropsIv
import Verif.SpecLang
import Verif.LemmasRead
import Verif.LemmasAcc
import Verif.LemmasAcc1
import Verif.LemmasAcc2
import Verif.LemmasAcc3
import Verif.LemmasAcc4
import Verif.PropsLang
import Verif.SpecDenote
import Verif.LemmasDen
import Verif.PropsDenote
import Verif.LemmasJson
import Verif.PropsJson
import Verif.PropsCmd
import Verif.Kit
import Verif.PropsKit
import Verif.Wasm
import Verif.PropsWasm
import Verif.SpecForm
import Verif.LemmasForm
import Verif.PropsForm
import Verif.SpecFail
import Verif.LemmasFail
import Verif.LemmasFail1
import Verif.LemmasFail2
import Verif.LemmasFail3
import Verif.LemmasFail4
import Verif.LemmasFail5
import Verif.PropsFail
import Verif.SpecDirect
import Verif.PropsSpan
import Verif.PropsDirect
import Verif.PropsMatch
import Verif.SpecCmp
import Verif.PropsOrder
import Verif.SpecYmd
import Verif.PropsYmd
import Verif.SpecRange
import Verif.PropsRange
import Verif.SpecJson
import Verif.PropsJsonText
import Verif.PropsDecode
import Verif.SpecTool
import Verif.PropsTool
import Verif.SpecMethod
import Verif.PropsMethod
import Verif.SpecRe
import Verif.LemmasWay
import Verif.PropsRe
import Verif.Text
import Verif.SpecText
import Verif.PropsText
import Verif.PropsExact
import Verif.Utf8
import Verif.PropsChars
import Verif.Message
import Verif.LemmasMessage
import Verif.SpecMessage
import Verif.LemmasMessage1
import Verif.LemmasMessage2
import Verif.LemmasMessage3
import Verif.LemmasMessage4
import Verif.LemmasMessage5
import Verif.PropsMessage
import Verif.Stderr
import Verif.SpecStderr
import Verif.PropsStderr
import Verif.MessageCmp
import Verif.SpecMessageCmp
import Verif.PropsMessageCmp
import Verif.SpecTree
import Verif.PropsTree
import Verif.SpecKit
import Verif.MessageKit
import Verif.PropsMessageKit
import Verif.MessageDirect
import Verif.SpecMessageDirect
import Verif.PropsMessageDirect
import Verif.SpecMessageYmd
import Verif.LemmasMessageYmd
import Verif.PropsMessageYmd
import Verif.Server
import Verif.SpecServer
import Verif.PropsServer
import Verif.SpecStandard
import Verif.LemmasStandard
import Verif.LemmasStandard1
import Verif.LemmasStandard2
import Verif.LemmasStandard3
import Verif.LemmasStandard4
import Verif.LemmasStandard5
import Verif.PropsStandard
import Verif.Page
import Verif.SpecPage
import Verif.LemmasPage
import Verif.PropsPage
import Verif.SpecLabel
import Verif.LemmasLabel
import Verif.PropsLabel
import Verif.Serve
import Verif.SpecServe
import Verif.LemmasServe
import Verif.PropsServe
import Verif.SpecSame
import Verif.LemmasSame
import Verif.LemmasSame1
import Verif.LemmasSame2
import Verif.LemmasSame3
import Verif.PropsSame
import Verif.SpecLength
import Verif.PropsLength
import Verif.SpecCase
import Verif.LemmasCase
import Verif.PropsCase
import Verif.SpecClock
import Verif.PropsClock
import Verif.SpecSort
import Verif.PropsSort
import Verif.SpecTypo
import Verif.PropsTypo
import Verif.SpecVague
import Verif.LemmasVague
import Verif.PropsVague
import Verif.SpecPeriod
import Verif.LemmasPeriod
import Verif.PropsPeriod
import Verif.SpecNear
import Verif.PropsNear
import Verif.SpecWhole
import Verif.PropsWhole
import Verif.SpecMark
import Verif.PropsMark
import Verif.PropsMark2
import Verif.PropsMark3
import Verif.Bytes
import Verif.SpecBytes
import Verif.LemmasBytes
import Verif.PropsBytes
import Verif.PropsBytes2
import Verif.SpecNormal
import Verif.PropsNormal
import Verif.BytesDirect
import Verif.SpecBytesDirect
import Verif.LemmasBytesDirect
import Verif.PropsBytesDirect
import Verif.PropsBytesDirect2
import Verif.SpecBytesYmd
import Verif.PropsBytesYmd
import Verif.FloatText
import Verif.SpecFloat
import Verif.LemmasFloat
import Verif.PropsFloat
import Verif.LemmasFloat2
import Verif.PropsFloat2
import Verif.TimeBytes
import Verif.SpecTimeBytes
import Verif.LemmasTimeBytes
import Verif.PropsTimeBytes
import Verif.PropsTimeBytes2
import Verif.JsonBytes
import Verif.SpecJsonBytes
import Verif.LemmasJsonBytes
import Verif.LemmasJsonBytes2
import Verif.PropsJsonBytes
import Verif.PropsJsonBytes2
import Verif.TimestampBytes
import Verif.SpecTimestampBytes
import Verif.PropsTimestampBytes
import Verif.Printable
import Verif.SpecPrintable
import Verif.LemmasPrintable
import Verif.PropsQuoted
import Verif.PropsTold
