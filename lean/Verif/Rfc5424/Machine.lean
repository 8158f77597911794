import Verif.Base
import Verif.Gen.Rfc5424

/-!
# `rfc5424/machine.go`, `rfc5424/syslog_message.go`, `rfc5424/parser.go`

The transition table is `Verif.Gen.Rfc5424.table`; this file gives the meaning of the embedded actions
and models `Parse`.
-/

namespace Verif.Rfc5424
open Verif.Fsm Verif.Gen.Rfc5424

/-- Structured data: `map[string]map[string]string`. -/
abbrev SD := SMap (SMap Bytes)

/-- The error texts of machine.go:14-47 (`timeParse` stands for the text of the error of `time.Parse`). -/
inductive ErrKind where
  | prival | pri | version | timestamp | hostname | appname | procid | msgid | structuredData
  | sdId | sdIdDup | sdParam | msg | msgNotCompliant | escape | parse | timeParse
  deriving DecidableEq, Repr

/-- `fmt.Errorf(kind + " [col %d]", col)`. -/
structure Err where
  kind : ErrKind
  col : Nat
  deriving DecidableEq, Repr

/-- The zero `time.Time` (January 1, year 1, 00:00:00 UTC). -/
def zeroTime : GoTime.Time := ⟨1, 1, 1, 0, 0, 0, 0, 0⟩

/-- `syslogMessage` (syslog_message.go:10-23); `structuredData = none` is the nil map. -/
structure Out where
  prioritySet : Bool := false
  timestampSet : Bool := false
  hasElements : Bool := false
  priority : UInt8 := 0
  version : UInt16 := 0
  timestamp : GoTime.Time := zeroTime
  hostname : Bytes := []
  appname : Bytes := []
  procID : Bytes := []
  msgID : Bytes := []
  structuredData : Option SD := none
  message : Bytes := []
  deriving DecidableEq, Repr

/-- `SyslogMessage` (syslog_message.go:78-83). -/
structure SyslogMessage extends Base where
  version : UInt16 := 0
  structuredData : Option SD := none
  deriving DecidableEq, Repr

/-- `SyslogMessage.Valid` (syslog_message.go:88-91). -/
def SyslogMessage.valid (sm : SyslogMessage) : Bool := sm.toBase.valid && Common.validVersion sm.version

/-- `syslogMessage.minimal` (syslog_message.go:25-27). -/
def Out.minimal (sm : Out) : Bool :=
  sm.prioritySet && Common.validPriority sm.priority && Common.validVersion sm.version

/-- the pattern `if s != "-" && s != "" { out.F = &s }` of `export` -/
def optField (s : Bytes) : Option Bytes := if s ≠ [45] ∧ s ≠ [] then some s else none

/-- `syslogMessage.export` (syslog_message.go:31-60). `&sm.structuredData` with a nil map (which would need
`hasElements` without `iniElements`) would read as an empty map; the model writes `[]` for it. -/
def Out.export (sm : Out) : SyslogMessage :=
  { (({} : Base).computeFromPriority sm.priority) with
    version := sm.version
    timestamp := if sm.timestampSet then some sm.timestamp else none
    hostname := optField sm.hostname
    appname := optField sm.appname
    procID := optField sm.procID
    msgID := optField sm.msgID
    structuredData := if sm.hasElements then some (sm.structuredData.getD []) else none
    message := if sm.message ≠ [] then some sm.message else none }

/-- The fields of `machine` (machine.go:60-72) that the automaton reads or writes, plus the local variable
`output` of `Parse`. `cs` is an argument of the interpreter; `pe = eof = len(data)`. -/
structure M where
  data : Bytes := []
  p : Nat := 0
  pb : Nat := 0
  err : Option Err := none
  currentelem : Bytes := []
  currentparam : Bytes := []
  msgat : Nat := 0
  backslashat : List Nat := []
  bestEffort : Bool := false
  compliantMsg : Bool := false
  out : Out := {}
  deriving DecidableEq, Repr

/-- `data[a:b]`; `none` is the Go panic "slice bounds out of range". -/
def slice (data : Bytes) (a b : Nat) : Option Bytes :=
  if a ≤ b ∧ b ≤ data.length then some ((data.drop a).take (b - a)) else none

/-- `machine.text` (machine.go:102-104). -/
def M.text (m : M) : Option Bytes := slice m.data m.pb m.p

/-- `m.err = fmt.Errorf(kind+" [col %d]", m.p); (m.p)--; goto st614` -/
def fail (kind : ErrKind) (m : M) : Step M := .jump { m with err := some ⟨kind, m.p⟩ } 614

/-- use the text, or panic -/
def withText (m : M) (f : Bytes → Step M) : Step M :=
  match m.text with
  | none => .panic
  | some t => f t

/-- The action snippets of machine.go. The Go text of each is quoted at its constructor in
`Verif.Gen.Rfc5424.Act` (first occurrences: mark 1721, setPrival 1730, setVersion 1757, setTimestamp 1642 and 1789,
setHostname 1830, setAppname 1861, setProcid 1892, setMsgid 1923, iniElements 1975, setId 1559, iniSdparam 2067,
setParamname 2703, setParamvalue 2812, addSlash 2888, setMsg 11000ff, errors 1370-1706). -/
def act : Act → M → Step M
  | .mark, m => .next { m with pb := m.p }
  | .markmsg, m => .next { m with msgat := m.p }
  | .selectMsgMode, m => if m.compliantMsg then .jump m 609 else .jump m 607
  | .setPrival, m => withText m fun t =>
      .next { m with out := { m.out with priority := Common.toU8 (Common.unsafeDec t), prioritySet := true } }
  | .setVersion, m => withText m fun t =>
      .next { m with out := { m.out with version := Common.toU16 (Common.unsafeDec t) } }
  | .setTimestamp, m => withText m fun t =>
      match GoTime.parseRFC3339Micro t with
      | none => fail .timeParse m
      | some tm => .next { m with out := { m.out with timestamp := tm, timestampSet := true } }
  | .setHostname, m => withText m fun t => .next { m with out := { m.out with hostname := t } }
  | .setAppname, m => withText m fun t => .next { m with out := { m.out with appname := t } }
  | .setProcid, m => withText m fun t => .next { m with out := { m.out with procID := t } }
  | .setMsgid, m => withText m fun t => .next { m with out := { m.out with msgID := t } }
  | .iniElements, m => .next { m with out := { m.out with structuredData := some [] } }
  | .setId, m => withText m fun t =>
      match m.out.structuredData with
      | none => .panic -- lookup in a nil map finds nothing; the assignment then panics
      | some sd =>
        match sd.find t with
        | some _ => fail .sdIdDup m
        | none =>
          .next { m with
            out := { m.out with structuredData := some (sd.insert t []), hasElements := true }
            currentelem := t }
  | .iniSdparam, m => .next { m with backslashat := [] }
  | .addSlash, m => .next { m with backslashat := m.backslashat ++ [m.p] }
  | .setParamname, m => withText m fun t => .next { m with currentparam := t }
  | .setParamvalue, m =>
      if m.out.hasElements then withText m fun t =>
        match (if m.backslashat.length > 0 then
            Common.removeBytes t (m.backslashat.map Int.ofNat) m.pb else some t) with
        | none => .panic
        | some text =>
          match m.out.structuredData with
          | none => .panic -- assignment to an entry in a nil map
          | some sd =>
            match sd.find m.currentelem with
            | none => .panic -- assignment to an entry in a nil map
            | some ps =>
              .next { m with out := { m.out with
                structuredData := some (sd.insert m.currentelem (ps.insert m.currentparam text)) } }
      else .next m
  | .setMsg, m => withText m fun t => .next { m with out := { m.out with message := t } }
  | .errPrival, m => fail .prival m
  | .errPri, m => fail .pri m
  | .errVersion, m => fail .version m
  | .errTimestamp, m => fail .timestamp m
  | .errHostname, m => fail .hostname m
  | .errAppname, m => fail .appname m
  | .errProcid, m => fail .procid m
  | .errMsgid, m => fail .msgid m
  | .errStructureddata, m => fail .structuredData m
  | .errSdid, m =>
      -- `delete` on a nil map is a no-op
      let sd := m.out.structuredData.map fun sd => sd.erase m.currentelem
      fail .sdId { m with out := { m.out with
        structuredData := sd
        hasElements := if (sd.getD []).length = 0 then false else m.out.hasElements } }
  | .errSdparam, m =>
      let sd := m.out.structuredData.map fun sd =>
        -- `delete(sd[currentelem], currentparam)`: deleting from the inner map, a no-op when it is nil
        match sd.find m.currentelem with
        | none => sd
        | some ps => sd.insert m.currentelem (ps.erase m.currentparam)
      fail .sdParam { m with out := { m.out with structuredData := sd } }
  | .errMsg, m =>
      if m.msgat > 0 then
        match slice m.data m.msgat m.p with
        | none => .panic
        | some t =>
          fail (if m.compliantMsg then .msgNotCompliant else .msg) { m with out := { m.out with message := t } }
      else fail (if m.compliantMsg then .msgNotCompliant else .msg) m
  | .errEscape, m => fail .escape m
  | .errParse, m => fail .parse m

/-- The row of state `n` (`stCaseN:`). States are always in range; the default is never used. -/
def T (n : Nat) : Row Act := table.getD n ⟨[], [], ⟨[], 0⟩, []⟩

/-- `p++` -/
def adv (m : M) : M := { m with p := m.p + 1 }

/-- The assignments at the start of `Parse` (machine.go:113-122): everything else of the machine
(`currentelem`, `currentparam` and the options) keeps the value left by the previous call. -/
def reset (m : M) (input : Bytes) : M :=
  { m with data := input, p := 0, pb := 0, msgat := 0, backslashat := [], err := none, out := {} }

/-- What a call of `Parse` returns: `nil` message = `none`, `nil` error = `none`. -/
structure Result where
  msg : Option SyslogMessage
  err : Option Err
  deriving DecidableEq, Repr

/-- machine.go:12034-12043. -/
def finish (cs : Nat) (m : M) : Result :=
  if cs < 603 ∨ cs = 614 then
    if m.bestEffort && m.out.minimal then ⟨some m.out.export, m.err⟩ else ⟨none, m.err⟩
  else ⟨some m.out.export, none⟩

/-- `machine.Parse` (machine.go:113-12044) of a machine in state `m`: the result and the machine afterwards;
`none` is a panic (or a non-terminating chain of jumps). -/
def parse (m : M) (input : Bytes) : Option (Result × M) :=
  match run T act adv input 1 (reset m input) with
  | .done cs m' => some (finish cs m', m')
  | .panic => none
  | .loop => none

/-- Options of `NewMachine`/`NewParser` (options.go). -/
structure Opts where
  bestEffort : Bool := false
  compliantMsg : Bool := false
  deriving DecidableEq, Repr

/-- `NewMachine(options...)` (machine.go:75-83). -/
def newMachine (o : Opts) : M := { bestEffort := o.bestEffort, compliantMsg := o.compliantMsg }

/-- `NewMachine(options...).Parse(input)` (machine.go:75-83, 113-12044); `none` is a panic. -/
def parse1 (o : Opts) (input : Bytes) : Option Result := (parse (newMachine o) input).map Prod.fst

/-- The body of `parser.Parse` between `Lock` and `Unlock` (parser.go:32-45). -/
def parserParse (m : M) (input : Bytes) : Option (Result × M) :=
  match parse m input with
  | none => none
  | some (⟨msg, err⟩, m') =>
    match err with
    | some e => if m.bestEffort then some (⟨msg, some e⟩, m') else some (⟨none, some e⟩, m')
    | none => some (⟨msg, none⟩, m')

end Verif.Rfc5424
