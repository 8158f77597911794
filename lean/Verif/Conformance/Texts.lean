import Verif.Conformance.Basic

/-!
# the exported error texts (rfc5424/machine.go:14-47)

Written by `tools/conform.py`; do not edit. One `example` per test case of the repository, with the line of the case.
-/

namespace Verif.Conformance
open Verif.Builder (Call)

/-- `ErrPrival` -/
example : Texts.rfc5424Const .prival = some [101, 120, 112, 101, 99, 116, 105, 110, 103, 32, 97, 32, 112, 114, 105, 111, 114, 105, 116, 121, 32, 118, 97, 108, 117, 101, 32, 105, 110, 32, 116, 104, 101, 32, 114, 97, 110, 103, 101, 32, 49, 45, 49, 57, 49, 32, 111, 114, 32, 101, 113, 117, 97, 108, 32, 116, 111, 32, 48] := by decide +kernel
/-- `ErrPri` -/
example : Texts.rfc5424Const .pri = some [101, 120, 112, 101, 99, 116, 105, 110, 103, 32, 97, 32, 112, 114, 105, 111, 114, 105, 116, 121, 32, 118, 97, 108, 117, 101, 32, 119, 105, 116, 104, 105, 110, 32, 97, 110, 103, 108, 101, 32, 98, 114, 97, 99, 107, 101, 116, 115] := by decide +kernel
/-- `ErrVersion` -/
example : Texts.rfc5424Const .version = some [101, 120, 112, 101, 99, 116, 105, 110, 103, 32, 97, 32, 118, 101, 114, 115, 105, 111, 110, 32, 118, 97, 108, 117, 101, 32, 105, 110, 32, 116, 104, 101, 32, 114, 97, 110, 103, 101, 32, 49, 45, 57, 57, 57] := by decide +kernel
/-- `ErrTimestamp` -/
example : Texts.rfc5424Const .timestamp = some [101, 120, 112, 101, 99, 116, 105, 110, 103, 32, 97, 32, 82, 70, 67, 51, 51, 51, 57, 77, 73, 67, 82, 79, 32, 116, 105, 109, 101, 115, 116, 97, 109, 112, 32, 111, 114, 32, 97, 32, 110, 105, 108, 32, 118, 97, 108, 117, 101] := by decide +kernel
/-- `ErrHostname` -/
example : Texts.rfc5424Const .hostname = some [101, 120, 112, 101, 99, 116, 105, 110, 103, 32, 97, 110, 32, 104, 111, 115, 116, 110, 97, 109, 101, 32, 40, 102, 114, 111, 109, 32, 49, 32, 116, 111, 32, 109, 97, 120, 32, 50, 53, 53, 32, 85, 83, 45, 65, 83, 67, 73, 73, 32, 99, 104, 97, 114, 97, 99, 116, 101, 114, 115, 41, 32, 111, 114, 32, 97, 32, 110, 105, 108, 32, 118, 97, 108, 117, 101] := by decide +kernel
/-- `ErrAppname` -/
example : Texts.rfc5424Const .appname = some [101, 120, 112, 101, 99, 116, 105, 110, 103, 32, 97, 110, 32, 97, 112, 112, 45, 110, 97, 109, 101, 32, 40, 102, 114, 111, 109, 32, 49, 32, 116, 111, 32, 109, 97, 120, 32, 52, 56, 32, 85, 83, 45, 65, 83, 67, 73, 73, 32, 99, 104, 97, 114, 97, 99, 116, 101, 114, 115, 41, 32, 111, 114, 32, 97, 32, 110, 105, 108, 32, 118, 97, 108, 117, 101] := by decide +kernel
/-- `ErrProcID` -/
example : Texts.rfc5424Const .procid = some [101, 120, 112, 101, 99, 116, 105, 110, 103, 32, 97, 32, 112, 114, 111, 99, 105, 100, 32, 40, 102, 114, 111, 109, 32, 49, 32, 116, 111, 32, 109, 97, 120, 32, 49, 50, 56, 32, 85, 83, 45, 65, 83, 67, 73, 73, 32, 99, 104, 97, 114, 97, 99, 116, 101, 114, 115, 41, 32, 111, 114, 32, 97, 32, 110, 105, 108, 32, 118, 97, 108, 117, 101] := by decide +kernel
/-- `ErrMsgID` -/
example : Texts.rfc5424Const .msgid = some [101, 120, 112, 101, 99, 116, 105, 110, 103, 32, 97, 32, 109, 115, 103, 105, 100, 32, 40, 102, 114, 111, 109, 32, 49, 32, 116, 111, 32, 109, 97, 120, 32, 51, 50, 32, 85, 83, 45, 65, 83, 67, 73, 73, 32, 99, 104, 97, 114, 97, 99, 116, 101, 114, 115, 41, 32, 111, 114, 32, 97, 32, 110, 105, 108, 32, 118, 97, 108, 117, 101] := by decide +kernel
/-- `ErrStructuredData` -/
example : Texts.rfc5424Const .structuredData = some [101, 120, 112, 101, 99, 116, 105, 110, 103, 32, 97, 32, 115, 116, 114, 117, 99, 116, 117, 114, 101, 100, 32, 100, 97, 116, 97, 32, 115, 101, 99, 116, 105, 111, 110, 32, 99, 111, 110, 116, 97, 105, 110, 105, 110, 103, 32, 111, 110, 101, 32, 111, 114, 32, 109, 111, 114, 101, 32, 101, 108, 101, 109, 101, 110, 116, 115, 32, 40, 96, 91, 105, 100, 40, 32, 107, 101, 121, 61, 34, 118, 97, 108, 117, 101, 34, 41, 42, 93, 43, 96, 41, 32, 111, 114, 32, 97, 32, 110, 105, 108, 32, 118, 97, 108, 117, 101] := by decide +kernel
/-- `ErrSdID` -/
example : Texts.rfc5424Const .sdId = some [101, 120, 112, 101, 99, 116, 105, 110, 103, 32, 97, 32, 115, 116, 114, 117, 99, 116, 117, 114, 101, 100, 32, 100, 97, 116, 97, 32, 101, 108, 101, 109, 101, 110, 116, 32, 105, 100, 32, 40, 102, 114, 111, 109, 32, 49, 32, 116, 111, 32, 109, 97, 120, 32, 51, 50, 32, 85, 83, 45, 65, 83, 67, 73, 73, 32, 99, 104, 97, 114, 97, 99, 116, 101, 114, 115, 59, 32, 101, 120, 99, 101, 112, 116, 32, 96, 61, 96, 44, 32, 96, 32, 96, 44, 32, 96, 93, 96, 44, 32, 97, 110, 100, 32, 96, 34, 96] := by decide +kernel
/-- `ErrSdIDDuplicated` -/
example : Texts.rfc5424Const .sdIdDup = some [100, 117, 112, 108, 105, 99, 97, 116, 101, 32, 115, 116, 114, 117, 99, 116, 117, 114, 101, 100, 32, 100, 97, 116, 97, 32, 101, 108, 101, 109, 101, 110, 116, 32, 105, 100] := by decide +kernel
/-- `ErrSdParam` -/
example : Texts.rfc5424Const .sdParam = some [101, 120, 112, 101, 99, 116, 105, 110, 103, 32, 97, 32, 115, 116, 114, 117, 99, 116, 117, 114, 101, 100, 32, 100, 97, 116, 97, 32, 112, 97, 114, 97, 109, 101, 116, 101, 114, 32, 40, 96, 107, 101, 121, 61, 34, 118, 97, 108, 117, 101, 34, 96, 44, 32, 98, 111, 116, 104, 32, 112, 97, 114, 116, 32, 102, 114, 111, 109, 32, 49, 32, 116, 111, 32, 109, 97, 120, 32, 51, 50, 32, 85, 83, 45, 65, 83, 67, 73, 73, 32, 99, 104, 97, 114, 97, 99, 116, 101, 114, 115, 59, 32, 107, 101, 121, 32, 99, 97, 110, 110, 111, 116, 32, 99, 111, 110, 116, 97, 105, 110, 32, 96, 61, 96, 44, 32, 96, 32, 96, 44, 32, 96, 93, 96, 44, 32, 97, 110, 100, 32, 96, 34, 96, 44, 32, 119, 104, 105, 108, 101, 32, 118, 97, 108, 117, 101, 32, 99, 97, 110, 110, 111, 116, 32, 99, 111, 110, 116, 97, 105, 110, 32, 96, 93, 96, 44, 32, 98, 97, 99, 107, 115, 108, 97, 115, 104, 44, 32, 97, 110, 100, 32, 96, 34, 96, 32, 117, 110, 108, 101, 115, 115, 32, 101, 115, 99, 97, 112, 101, 100, 41] := by decide +kernel
/-- `ErrMsg` -/
example : Texts.rfc5424Const .msg = some [101, 120, 112, 101, 99, 116, 105, 110, 103, 32, 97, 32, 102, 114, 101, 101, 45, 102, 111, 114, 109, 32, 111, 112, 116, 105, 111, 110, 97, 108, 32, 109, 101, 115, 115, 97, 103, 101, 32, 105, 110, 32, 85, 84, 70, 45, 56, 32, 40, 115, 116, 97, 114, 116, 105, 110, 103, 32, 119, 105, 116, 104, 32, 111, 114, 32, 119, 105, 116, 104, 111, 117, 116, 32, 66, 79, 77, 41] := by decide +kernel
/-- `ErrMsgNotCompliant` -/
example : Texts.rfc5424Const .msgNotCompliant = some [101, 120, 112, 101, 99, 116, 105, 110, 103, 32, 97, 32, 102, 114, 101, 101, 45, 102, 111, 114, 109, 32, 111, 112, 116, 105, 111, 110, 97, 108, 32, 109, 101, 115, 115, 97, 103, 101, 32, 105, 110, 32, 85, 84, 70, 45, 56, 32, 40, 115, 116, 97, 114, 116, 105, 110, 103, 32, 119, 105, 116, 104, 32, 111, 114, 32, 119, 105, 116, 104, 111, 117, 116, 32, 66, 79, 77, 41, 32, 111, 114, 32, 97, 32, 102, 114, 101, 101, 45, 102, 111, 114, 109, 32, 111, 112, 116, 105, 111, 110, 97, 108, 32, 109, 101, 115, 115, 97, 103, 101, 32, 105, 110, 32, 97, 110, 121, 32, 101, 110, 99, 111, 100, 105, 110, 103, 32, 40, 115, 116, 97, 114, 116, 105, 110, 103, 32, 119, 105, 116, 104, 111, 117, 116, 32, 66, 79, 77, 41] := by decide +kernel
/-- `ErrEscape` -/
example : Texts.rfc5424Const .escape = some [101, 120, 112, 101, 99, 116, 105, 110, 103, 32, 99, 104, 97, 114, 115, 32, 96, 93, 96, 44, 32, 96, 34, 96, 44, 32, 97, 110, 100, 32, 96, 92, 96, 32, 116, 111, 32, 98, 101, 32, 101, 115, 99, 97, 112, 101, 100, 32, 119, 105, 116, 104, 105, 110, 32, 112, 97, 114, 97, 109, 32, 118, 97, 108, 117, 101] := by decide +kernel
/-- `ErrParse` -/
example : Texts.rfc5424Const .parse = some [112, 97, 114, 115, 105, 110, 103, 32, 101, 114, 114, 111, 114] := by decide +kernel

end Verif.Conformance
