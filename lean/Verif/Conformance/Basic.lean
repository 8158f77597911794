import Verif.Builder.Model
import Verif.Rfc3164.Machine
import Verif.Octet.Model
import Verif.NonTransparent.Model
import Verif.Texts

/-!
# What the repository's tests check, about the model

These are tests of the model, not proofs about the code: each generated module evaluates the model, in the kernel, on the inputs of the
repository's test tables and compares with the results that the tests expect of the Go code.
-/

namespace Verif.Conformance
open Verif.Rfc5424 (SyslogMessage)

/-- `(&SyslogMessage{}).SetX(...)...` -/
def built (cs : List Builder.Call) : SyslogMessage := ((Builder.runCalls cs ({}, {})).map Prod.fst).getD {}

/-- `runTestCases` for a valid case (rfc5424/machine_test.go:1695-1700) -/
def valid5424 (co : Bool) (input : Bytes) (value : SyslogMessage) : Bool :=
  [false, true].all fun be => decide (Rfc5424.parse1 { bestEffort := be, compliantMsg := co } input = some ⟨some value, none⟩)

/-- `runTestCases` for an invalid case (rfc5424/machine_test.go:1687-1694) -/
def invalid5424 (co : Bool) (input : Bytes) (err : Rfc5424.Err) (partialValue : Option SyslogMessage) : Bool :=
  decide (Rfc5424.parse1 { compliantMsg := co } input = some ⟨none, some err⟩) &&
  decide (Rfc5424.parse1 { bestEffort := true, compliantMsg := co } input = some ⟨partialValue, some err⟩)

/-- the result has this error text -/
def hasError5424 (input text : Bytes) (e : Option Rfc5424.Err) : Bool :=
  match e with
  | some e => decide (Texts.rfc5424Text input e = text)
  | none => false

/-- as `invalid5424`, for the errors of `time.Parse` -/
def invalid5424Text (co : Bool) (input text : Bytes) (partialValue : Option SyslogMessage) : Bool :=
  (match Rfc5424.parse1 { compliantMsg := co } input with
    | some r => decide (r.msg = none) && hasError5424 input text r.err
    | none => false) &&
  (match Rfc5424.parse1 { bestEffort := true, compliantMsg := co } input with
    | some r => decide (r.msg = partialValue) && hasError5424 input text r.err
    | none => false)

/-- `TestMachineParseWithCompliantMsgOff` (rfc5424/machine_test.go:1658-1669) -/
def accepted5424 (input : Bytes) : Bool :=
  [false, true].all fun be =>
    match Rfc5424.parse1 { bestEffort := be } input with
    | some r => r.msg.isSome && decide (r.err = none)
    | none => false

/-- `TestMachineParse` for a valid case (rfc3164/machine_test.go:158-176) -/
def valid3164 (input : Bytes) (value : Base) : Bool :=
  [false, true].all fun be =>
    match Rfc3164.parse1 { bestEffort := be } input with
    | some r => decide (r.err = none) && decide (r.msg = some value)
    | none => false

/-- a result a test expects: the message and the text of the error -/
structure Expected where
  msg : Option SyslogMessage
  err : Option Bytes

/-- `TestParse` (octetcounting/parser_test.go:605-640): `strings.NewReader` delivers everything in one `Read`. The input is only used for
the texts of impossible dates, which do not occur. -/
def octet (be : Bool) (max : Int) (input : Bytes) (expected : List Expected) : Bool :=
  let opts := (if be then [Octet.Opt.bestEffort] else []) ++ [.maxMessageLength max]
  match (Octet.newParser opts).parse [⟨input, false⟩, ⟨[], true⟩] with
  | none => false
  | some (rs, _) => rs.length == expected.length &&
      (rs.zip expected).all fun (r, e) => decide (r.msg = e.msg) && decide (r.err.map (Texts.octetText input) = e.err)

/-- a result a test expects: the error is that of the reader (`some none`) or has this text -/
structure ExpectedNT where
  msg : Option SyslogMessage
  err : Option (Option Bytes)

/-- `TestParse` (nontransparent/parser_test.go:153-221), for all behaviours of the external loop that the model leaves open -/
def nontransparent (be : Bool) (t : NonTransparent.TrailerType) (input : Bytes) (expected : List ExpectedNT) : Bool :=
  let opts := (if be then [NonTransparent.Opt.bestEffort] else []) ++ [.trailer t]
  [false, true].all fun a => [false, true].all fun b => [false, true].all fun c =>
    match (NonTransparent.newParser opts).parse ⟨a, b, c⟩ input with
    | none => false
    | some m => m.out.length == expected.length &&
        (m.out.zip expected).all fun (r, e) => decide (r.msg = e.msg) && decide ((r.err.map fun
          | .message e => some (Texts.rfc5424Text input e)
          | .reading _ => none) = e.err)

end Verif.Conformance
