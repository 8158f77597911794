import Verif.Base
import Verif.Calendar
import Verif.Gen.Rfc3164

/-!
# `rfc3164/machine.go`, `rfc3164/syslog_message.go`, `rfc3164/options.go`, `rfc3164/year.go`, `rfc3164/parser.go`

The transition tables are `Verif.Gen.Rfc3164.table` and `tableR`; this file gives the meaning of the embedded actions and models
`Parse`.
-/

namespace Verif.Rfc3164
open Verif.Fsm Verif.Gen.Rfc3164

/-- The error texts of machine.go:11-21 (`contentStart` and `content` are not used by the code; `timeParse` stands for the text of the error of `time.Parse`). -/
inductive ErrKind where
  | prival | pri | timestamp | rfc3339 | hostname | tag | contentStart | content | timeParse
  deriving DecidableEq, Repr

/-- `fmt.Errorf(kind + " [col %d]", col)`. -/
structure Err where
  kind : ErrKind
  col : Nat
  deriving DecidableEq, Repr

/-- The zero `time.Time`. -/
def zeroTime : GoTime.Time := ⟨1, 1, 1, 0, 0, 0, 0, 0⟩

/-- `syslogMessage` (syslog_message.go:10-19). -/
structure Out where
  prioritySet : Bool := false
  timestampSet : Bool := false
  priority : UInt8 := 0
  timestamp : GoTime.Time := zeroTime
  hostname : Bytes := []
  tag : Bytes := []
  content : Bytes := []
  message : Bytes := []
  deriving DecidableEq, Repr

/-- `syslogMessage.minimal` (syslog_message.go:21-23). -/
def Out.minimal (sm : Out) : Bool := sm.prioritySet && Common.validPriority sm.priority

/-- the pattern `if s != "-" && s != "" { out.F = &s }` of `export` -/
def optField (s : Bytes) : Option Bytes := if s ≠ [45] ∧ s ≠ [] then some s else none

/-- `syslogMessage.export` (syslog_message.go:27-51); the result `SyslogMessage` (syslog_message.go:53-55) only embeds `syslog.Base`. -/
def Out.export (sm : Out) : Base :=
  { (({} : Base).computeFromPriority sm.priority) with
    timestamp := if sm.timestampSet then some sm.timestamp else none
    hostname := optField sm.hostname
    appname := optField sm.tag
    procID := optField sm.content
    message := if sm.message ≠ [] then some sm.message else none }

/-- Options of `NewMachine`/`NewParser` (options.go:10-67, machine.go:43-84). `yyyy` is the year that the `YearOperator` gave when the
option was applied (`WithYear` calls `Operate` at once, machine.go:64-66, year.go:18-38); without `WithYear` it is 0. `loc` is set by
`WithTimezone`, `timezone` by `WithLocaleTimezone`; `none` is nil. -/
structure Opts where
  bestEffort : Bool := false
  yyyy : Int := 0
  rfc3339 : Bool := false
  loc : Option GoTime.Location := none
  timezone : Option GoTime.Location := none

/-- The fields of `machine` (machine.go:29-40) that `Parse` writes, plus the local variable `output`. The options, which `Parse` only
reads, are an argument of the model. -/
structure M where
  data : Bytes := []
  p : Nat := 0
  pb : Nat := 0
  err : Option Err := none
  out : Out := {}
  deriving DecidableEq, Repr

/-- `data[a:b]`; `none` is the Go panic "slice bounds out of range". -/
def slice (data : Bytes) (a b : Nat) : Option Bytes :=
  if a ≤ b ∧ b ≤ data.length then some ((data.drop a).take (b - a)) else none

/-- `machine.text` (machine.go:92-94). -/
def M.text (m : M) : Option Bytes := slice m.data m.pb m.p

/-- `m.err = fmt.Errorf(kind+" [col %d]", m.p); (m.p)--; goto st373` -/
def fail (kind : ErrKind) (m : M) : Step M := .jump { m with err := some ⟨kind, m.p⟩ } 373

/-- use the text, or panic -/
def withText (m : M) (f : Bytes → Step M) : Step M :=
  match m.text with
  | none => .panic
  | some t => f t

/-- the English three-letter month names of Go's `time` package -/
def monthName : Nat → Bytes
  | 1 => [74, 97, 110] | 2 => [70, 101, 98] | 3 => [77, 97, 114] | 4 => [65, 112, 114] | 5 => [77, 97, 121] | 6 => [74, 117, 110]
  | 7 => [74, 117, 108] | 8 => [65, 117, 103] | 9 => [83, 101, 112] | 10 => [79, 99, 116] | 11 => [78, 111, 118] | 12 => [68, 101, 99]
  | _ => []

/-- number of a month name -/
def monthNum (w : Bytes) : Option Nat := (List.range 13).find? fun k => decide (monthName k = w ∧ w ≠ [])

/-- `time.Parse(time.Stamp, s)` (layout `Jan _2 15:04:05`): year 0, UTC; `none` is a non-nil error. Go's range checks (hour, minute,
second, and day against `daysIn(month, 0)`; year 0 is a leap year) are included. Restricted to the shape `Mmm xd dd:dd:dd` with `x` a
space or a digit: other strings never reach this function because the FSM runs first; for them the model answers `none`. -/
def parseStamp : Bytes → Option GoTime.Time
  | [a, b, c, 32, d1, d2, 32, h1, h2, 58, n1, n2, 58, s1, s2] =>
    if [d2, h1, h2, n1, n2, s1, s2].all GoTime.isDigit && (decide (d1 = 32) || GoTime.isDigit d1) then
      match monthNum [a, b, c] with
      | none => none
      | some month =>
        let day := if d1 = 32 then GoTime.decVal [d2] else GoTime.decVal [d1, d2]
        let hour := GoTime.decVal [h1, h2]
        let min := GoTime.decVal [n1, n2]
        let sec := GoTime.decVal [s1, s2]
        if hour < 24 ∧ min < 60 ∧ sec < 60 ∧ 1 ≤ day ∧ day ≤ GoTime.daysIn month 0 then some ⟨0, month, day, hour, min, sec, 0, 0⟩
        else none
    else none
  | _ => none

/-- `time.ParseInLocation(time.Stamp, s, l)` of a text that `time.Parse` has read as `t`: `time.Date` of the same fields in `l` -/
def inZone (t : GoTime.Time) (l : GoTime.Location) : GoTime.Time := GoTime.date t.year t.month t.day t.hour t.min t.sec t.nsec l

/-- The second half of the `set_timestamp` action (machine.go:1170-1178): the timestamp stored for a text that `time.Parse` has read as `t`. -/
def adjust (o : Opts) (t : GoTime.Time) : GoTime.Time :=
  let t' := match o.timezone with
    | none => t.addYears o.yyyy GoTime.utc
    | some l => (inZone t l).addYears o.yyyy l
  match o.loc with
  | none => t'
  | some l => t'.inLoc l

/-- The action snippets of machine.go. The Go text of each is quoted at its constructor in `Verif.Gen.Rfc3164.Act`. -/
def act (o : Opts) : Act → M → Step M
  | .mark, m => .next { m with pb := m.p }
  | .setPrival, m => withText m fun t =>
      .next { m with out := { m.out with priority := Common.toU8 (Common.unsafeDec t), prioritySet := true } }
  | .setTimestamp, m => withText m fun t =>
      match parseStamp t with
      | none => fail .timeParse m
      | some tm => .next { m with out := { m.out with timestamp := adjust o tm, timestampSet := true } }
  | .setRfc3339, m => withText m fun t =>
      -- `time.RFC3339`: the texts that arrive here have no fraction
      match GoTime.parseRFC3339Micro t with
      | none => fail .timeParse m
      | some tm => .next { m with out := { m.out with timestamp := tm, timestampSet := true } }
  | .setHostname, m => withText m fun t => .next { m with out := { m.out with hostname := t } }
  | .setTag, m => withText m fun t => .next { m with out := { m.out with tag := t } }
  | .setContent, m => withText m fun t => .next { m with out := { m.out with content := t } }
  | .setMessage, m => withText m fun t => .next { m with out := { m.out with message := t } }
  | .errPrival, m => fail .prival m
  | .errPri, m => fail .pri m
  | .errTimestamp, m => fail .timestamp m
  | .errRfc3339, m => fail .rfc3339 m
  | .errHostname, m => fail .hostname m
  | .errTag, m => fail .tag m

/-- The row of state `n` (`stCaseN:`). The generated code tests `m.rfc3339` inside the blocks of states 4 and 300-329; `table` and `tableR`
are the two outcomes. -/
def T (o : Opts) (n : Nat) : Row Act := (if o.rfc3339 then tableR else table).getD n ⟨[], [], ⟨[], 0⟩, []⟩

/-- `p++` -/
def adv (m : M) : M := { m with p := m.p + 1 }

/-- The assignments at the start of `Parse` (machine.go:98-105). -/
def reset (m : M) (input : Bytes) : M := { m with data := input, p := 0, pb := 0, err := none, out := {} }

/-- What a call of `Parse` returns: `nil` message = `none`, `nil` error = `none`. -/
structure Result where
  msg : Option Base
  err : Option Err
  deriving DecidableEq, Repr

/-- machine.go:7254-7263. -/
def finish (o : Opts) (cs : Nat) (m : M) : Result :=
  if cs < 333 ∨ cs = 373 then
    if o.bestEffort && m.out.minimal then ⟨some m.out.export, m.err⟩ else ⟨none, m.err⟩
  else ⟨some m.out.export, none⟩

/-- `machine.Parse` (machine.go:97-7263) of a machine in state `m`: the result and the machine afterwards; `none` is a panic (or a
non-terminating chain of jumps). -/
def parse (o : Opts) (m : M) (input : Bytes) : Option (Result × M) :=
  match run (T o) (act o) adv input 1 (reset m input) with
  | .done cs m' => some (finish o cs m', m')
  | .panic => none
  | .loop => none

/-- `NewMachine(options...).Parse(input)`; `none` is a panic. -/
def parse1 (o : Opts) (input : Bytes) : Option Result := (parse o {} input).map Prod.fst

/-- The body of `parser.Parse` between `Lock` and `Unlock` (parser.go:32-45). -/
def parserParse (o : Opts) (m : M) (input : Bytes) : Option (Result × M) :=
  match parse o m input with
  | none => none
  | some (⟨msg, err⟩, m') =>
    match err with
    | some e => if o.bestEffort then some (⟨msg, some e⟩, m') else some (⟨none, some e⟩, m')
    | none => some (⟨msg, none⟩, m')

end Verif.Rfc3164
