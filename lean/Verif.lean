import Verif.Base
import Verif.Builder.Mangle
import Verif.Builder.Model
import Verif.Builder.Param
import Verif.Builder.Print
import Verif.Builder.Round
import Verif.Builder.Set
import Verif.Bytes
import Verif.Calendar
import Verif.Common
import Verif.CommonLemmas
import Verif.Conc.Builders
import Verif.Conc.Flag
import Verif.Conc.Lock
import Verif.Conformance.Basic
import Verif.Conformance.Builder
import Verif.Conformance.Examples
import Verif.Conformance.NonTransparent
import Verif.Conformance.Octet
import Verif.Conformance.Rfc3164
import Verif.Conformance.Rfc5424Compliant_1
import Verif.Conformance.Rfc5424Compliant_2
import Verif.Conformance.Rfc5424Compliant_3
import Verif.Conformance.Rfc5424Compliant_4
import Verif.Conformance.Rfc5424Compliant_5
import Verif.Conformance.Rfc5424Compliant_6
import Verif.Conformance.Rfc5424Compliant_7
import Verif.Conformance.Rfc5424Compliant_8
import Verif.Conformance.Rfc5424Gen_1
import Verif.Conformance.Rfc5424Gen_2
import Verif.Conformance.Rfc5424Gen_3
import Verif.Conformance.Rfc5424Gen_4
import Verif.Conformance.Rfc5424_1
import Verif.Conformance.Rfc5424_2
import Verif.Conformance.Rfc5424_3
import Verif.Conformance.Rfc5424_4
import Verif.Conformance.Rfc5424_5
import Verif.Conformance.Rfc5424_6
import Verif.Conformance.Rfc5424_7
import Verif.Conformance.Texts
import Verif.Cost
import Verif.Ears
import Verif.Fsm
import Verif.FsmErr
import Verif.FsmLemmas
import Verif.Gen.Builder
import Verif.Gen.GoBuilder
import Verif.Gen.GoLines
import Verif.Gen.GoRfc3164
import Verif.Gen.GoRfc5424
import Verif.Gen.Mini
import Verif.Gen.MiniNames
import Verif.Gen.Rfc3164
import Verif.Gen.Rfc5424
import Verif.Go.Builder
import Verif.Go.Check
import Verif.Go.Lang
import Verif.Go.Lines
import Verif.Go.Ragel
import Verif.Go.Rfc3164
import Verif.Go.Rfc5424
import Verif.Go.Sim
import Verif.GoTime
import Verif.Heap
import Verif.Messages
import Verif.MessagesLemmas
import Verif.MessagesSet
import Verif.MessagesWorld
import Verif.Mini.Base
import Verif.Mini.Build5
import Verif.Mini.Common
import Verif.Mini.Ctor
import Verif.Mini.Cut
import Verif.Mini.Export
import Verif.Mini.Fmt
import Verif.Mini.Halt
import Verif.Mini.Lang
import Verif.Mini.Lemmas
import Verif.Mini.Lines
import Verif.Mini.LinesMem
import Verif.Mini.LinesNew
import Verif.Mini.Mono
import Verif.Mini.Msgs
import Verif.Mini.OctetEnv
import Verif.Mini.OctetMem
import Verif.Mini.OctetNew
import Verif.Mini.OctetRun
import Verif.Mini.OctetScan
import Verif.Mini.OctetText
import Verif.Mini.Opts
import Verif.Mini.ParseGo
import Verif.Mini.ParseGo3
import Verif.Mini.Rep5
import Verif.Mini.SetGo
import Verif.Mini.Store
import Verif.Mini.Store3
import Verif.Mini.Text5
import Verif.NonTransparent.Broken
import Verif.NonTransparent.Calls
import Verif.NonTransparent.Cost
import Verif.NonTransparent.Listener
import Verif.NonTransparent.ListenerRun
import Verif.NonTransparent.Model
import Verif.NonTransparent.Open
import Verif.NonTransparent.Panic
import Verif.NonTransparent.PanicRun
import Verif.NonTransparent.Replace
import Verif.NonTransparent.Run
import Verif.Octet.Cost
import Verif.Octet.Errors
import Verif.Octet.Frames
import Verif.Octet.Late
import Verif.Octet.Listener
import Verif.Octet.ListenerRun
import Verif.Octet.Memory
import Verif.Octet.MemoryRefine
import Verif.Octet.Model
import Verif.Octet.Open
import Verif.Octet.OpenEnd
import Verif.Octet.OpenRun
import Verif.Octet.Platform
import Verif.Octet.PlatformSpec
import Verif.Octet.ReadErr
import Verif.Octet.Refine
import Verif.Octet.Replace
import Verif.Octet.Resume
import Verif.Octet.Run
import Verif.Octet.Spec
import Verif.Octet.Stream
import Verif.Octet.Timed
import Verif.Options
import Verif.Props.Abnf
import Verif.Props.BsdResend
import Verif.Props.BsdTruncated
import Verif.Props.Builder
import Verif.Props.Capacity
import Verif.Props.Common
import Verif.Props.Concurrent
import Verif.Props.Cost
import Verif.Props.CostBsd
import Verif.Props.CostEscape
import Verif.Props.Delivery
import Verif.Props.Detect
import Verif.Props.Framing
import Verif.Props.HandMade
import Verif.Props.Listener
import Verif.Props.Memory
import Verif.Props.Messages
import Verif.Props.Mini
import Verif.Props.MiniBuild
import Verif.Props.MiniCtor
import Verif.Props.MiniHalt
import Verif.Props.MiniLineStream
import Verif.Props.MiniLines
import Verif.Props.MiniMsgs
import Verif.Props.MiniOctet
import Verif.Props.MiniOctetHistory
import Verif.Props.MiniPanic
import Verif.Props.MiniParse
import Verif.Props.MiniPrograms
import Verif.Props.MiniScanner
import Verif.Props.MiniStream
import Verif.Props.NonTransparent
import Verif.Props.NonTransparentBroken
import Verif.Props.NonTransparentCalls
import Verif.Props.NonTransparentCost
import Verif.Props.NonTransparentListener
import Verif.Props.NonTransparentPanic
import Verif.Props.NonTransparentPanicRun
import Verif.Props.Octet
import Verif.Props.OctetCost
import Verif.Props.OctetMemory
import Verif.Props.OctetPanic
import Verif.Props.OctetScanner
import Verif.Props.OctetStream
import Verif.Props.Options
import Verif.Props.Pipeline
import Verif.Props.Platform
import Verif.Props.ReadErrors
import Verif.Props.Rebuild
import Verif.Props.Replaced
import Verif.Props.Resume
import Verif.Props.Rfc3164
import Verif.Props.Rfc3164Errors
import Verif.Props.Rfc3164Viable
import Verif.Props.Rfc5424
import Verif.Props.Rfc5424Errors
import Verif.Props.Rfc5424Viable
import Verif.Props.SameMessage
import Verif.Props.Source
import Verif.Props.Switch
import Verif.Props.Texts
import Verif.Props.Truncated
import Verif.Props.Whole
import Verif.Rfc3164.Cost
import Verif.Rfc3164.Descent
import Verif.Rfc3164.DescentHdr
import Verif.Rfc3164.DescentRun
import Verif.Rfc3164.Fails
import Verif.Rfc3164.Grammar
import Verif.Rfc3164.Language
import Verif.Rfc3164.Machine
import Verif.Rfc3164.Outcome
import Verif.Rfc3164.Prefix
import Verif.Rfc3164.Stamp
import Verif.Rfc5424.Abnf
import Verif.Rfc5424.Cost
import Verif.Rfc5424.Cut
import Verif.Rfc5424.CutCases
import Verif.Rfc5424.Descent
import Verif.Rfc5424.DescentEq
import Verif.Rfc5424.DescentHdr
import Verif.Rfc5424.DescentMsg
import Verif.Rfc5424.DescentSD
import Verif.Rfc5424.DescentSD2
import Verif.Rfc5424.Fails
import Verif.Rfc5424.FailsMain
import Verif.Rfc5424.FailsSD
import Verif.Rfc5424.Grammar
import Verif.Rfc5424.GrammarSD
import Verif.Rfc5424.Inv
import Verif.Rfc5424.Machine
import Verif.Rfc5424.Prefix
import Verif.Rfc5424.Steps
import Verif.Rfc5424.Unique
import Verif.Rfc5424.Wrap
import Verif.Spec.Abnf
import Verif.Spec.BsdCut
import Verif.Spec.BsdResend
import Verif.Spec.Builder
import Verif.Spec.BuilderCalls
import Verif.Spec.Cut
import Verif.Spec.Escape
import Verif.Spec.Listeners
import Verif.Spec.Names
import Verif.Spec.NonTransparent
import Verif.Spec.NonTransparentBroken
import Verif.Spec.NonTransparentCalls
import Verif.Spec.NonTransparentPanic
import Verif.Spec.Octet
import Verif.Spec.OctetPlatform
import Verif.Spec.OctetScanner
import Verif.Spec.OctetStream
import Verif.Spec.Rfc3164
import Verif.Spec.Rfc3164Errors
import Verif.Spec.Rfc5424
import Verif.Spec.Rfc5424Errors
import Verif.Spec.SameMessage
import Verif.Spec.Timestamp
import Verif.Spec.Utf8
import Verif.Testing
import Verif.Texts
import Verif.Timestamp
import Verif.Utf8
