import Verif.Conformance.Rfc5424_3
import Verif.Conformance.Basic

/-!
# `TestMachineParseWithCompliantMsgOn`, `TestMachineParseWithCompliantMsgOff` (rfc5424/machine_test.go)

Written by `tools/conform.py`; do not edit. One `example` per test case of the repository, with the line of the case.
-/

namespace Verif.Conformance
open Verif.Builder (Call)

/-- rfc5424/machine_test.go:653 `<191>999 2018-12-31T23:59:59.999999-23:59 abcdefghilmnopqrstuvzabcdefghilmnopqrstuvzabcdefghilmnopqrstuvzabcdefghilmnopqrstuvzabcdefghilmnopqrstuvzabcdefghilmnopqrstuvzabcdefghilmnopqrstuvzabcdefghilmnopqrstuvzabcdefghilmnopqrstuvzabcdefghilmnopqrstuvzabcdefghilmnopqrstuvzabcdefghilmnopqrstuvzabc abcdefghilmnopqrstuvzabcdefghilmnopqrstuvzabcdef abcdefghilmnopqrstuvzabcdefghilmnopqrstuvzabcdefghilmnopqrstuvzabcdefghilmnopqrstuvzabcdefghilmnopqrstuvzabcdefghilmnopqrstuvzab abcdefghilmnopqrstuvzabcdefghilm -` -/
example : valid5424 true [60, 49, 57, 49, 62, 57, 57, 57, 32, 50, 48, 49, 56, 45, 49, 50, 45, 51, 49, 84, 50, 51, 58, 53, 57, 58, 53, 57, 46, 57, 57, 57, 57, 57, 57, 45, 50, 51, 58, 53, 57, 32, 97, 98, 99, 100, 101, 102, 103, 104, 105, 108, 109, 110, 111, 112, 113, 114, 115, 116, 117, 118, 122, 97, 98, 99, 100, 101, 102, 103, 104, 105, 108, 109, 110, 111, 112, 113, 114, 115, 116, 117, 118, 122, 97, 98, 99, 100, 101, 102, 103, 104, 105, 108, 109, 110, 111, 112, 113, 114, 115, 116, 117, 118, 122, 97, 98, 99, 100, 101, 102, 103, 104, 105, 108, 109, 110, 111, 112, 113, 114, 115, 116, 117, 118, 122, 97, 98, 99, 100, 101, 102, 103, 104, 105, 108, 109, 110, 111, 112, 113, 114, 115, 116, 117, 118, 122, 97, 98, 99, 100, 101, 102, 103, 104, 105, 108, 109, 110, 111, 112, 113, 114, 115, 116, 117, 118, 122, 97, 98, 99, 100, 101, 102, 103, 104, 105, 108, 109, 110, 111, 112, 113, 114, 115, 116, 117, 118, 122, 97, 98, 99, 100, 101, 102, 103, 104, 105, 108, 109, 110, 111, 112, 113, 114, 115, 116, 117, 118, 122, 97, 98, 99, 100, 101, 102, 103, 104, 105, 108, 109, 110, 111, 112, 113, 114, 115, 116, 117, 118, 122, 97, 98, 99, 100, 101, 102, 103, 104, 105, 108, 109, 110, 111, 112, 113, 114, 115, 116, 117, 118, 122, 97, 98, 99, 100, 101, 102, 103, 104, 105, 108, 109, 110, 111, 112, 113, 114, 115, 116, 117, 118, 122, 97, 98, 99, 100, 101, 102, 103, 104, 105, 108, 109, 110, 111, 112, 113, 114, 115, 116, 117, 118, 122, 97, 98, 99, 32, 97, 98, 99, 100, 101, 102, 103, 104, 105, 108, 109, 110, 111, 112, 113, 114, 115, 116, 117, 118, 122, 97, 98, 99, 100, 101, 102, 103, 104, 105, 108, 109, 110, 111, 112, 113, 114, 115, 116, 117, 118, 122, 97, 98, 99, 100, 101, 102, 32, 97, 98, 99, 100, 101, 102, 103, 104, 105, 108, 109, 110, 111, 112, 113, 114, 115, 116, 117, 118, 122, 97, 98, 99, 100, 101, 102, 103, 104, 105, 108, 109, 110, 111, 112, 113, 114, 115, 116, 117, 118, 122, 97, 98, 99, 100, 101, 102, 103, 104, 105, 108, 109, 110, 111, 112, 113, 114, 115, 116, 117, 118, 122, 97, 98, 99, 100, 101, 102, 103, 104, 105, 108, 109, 110, 111, 112, 113, 114, 115, 116, 117, 118, 122, 97, 98, 99, 100, 101, 102, 103, 104, 105, 108, 109, 110, 111, 112, 113, 114, 115, 116, 117, 118, 122, 97, 98, 99, 100, 101, 102, 103, 104, 105, 108, 109, 110, 111, 112, 113, 114, 115, 116, 117, 118, 122, 97, 98, 32, 97, 98, 99, 100, 101, 102, 103, 104, 105, 108, 109, 110, 111, 112, 113, 114, 115, 116, 117, 118, 122, 97, 98, 99, 100, 101, 102, 103, 104, 105, 108, 109, 32, 45] (built [.version 999, .hostname [97, 98, 99, 100, 101, 102, 103, 104, 105, 108, 109, 110, 111, 112, 113, 114, 115, 116, 117, 118, 122, 97, 98, 99, 100, 101, 102, 103, 104, 105, 108, 109, 110, 111, 112, 113, 114, 115, 116, 117, 118, 122, 97, 98, 99, 100, 101, 102, 103, 104, 105, 108, 109, 110, 111, 112, 113, 114, 115, 116, 117, 118, 122, 97, 98, 99, 100, 101, 102, 103, 104, 105, 108, 109, 110, 111, 112, 113, 114, 115, 116, 117, 118, 122, 97, 98, 99, 100, 101, 102, 103, 104, 105, 108, 109, 110, 111, 112, 113, 114, 115, 116, 117, 118, 122, 97, 98, 99, 100, 101, 102, 103, 104, 105, 108, 109, 110, 111, 112, 113, 114, 115, 116, 117, 118, 122, 97, 98, 99, 100, 101, 102, 103, 104, 105, 108, 109, 110, 111, 112, 113, 114, 115, 116, 117, 118, 122, 97, 98, 99, 100, 101, 102, 103, 104, 105, 108, 109, 110, 111, 112, 113, 114, 115, 116, 117, 118, 122, 97, 98, 99, 100, 101, 102, 103, 104, 105, 108, 109, 110, 111, 112, 113, 114, 115, 116, 117, 118, 122, 97, 98, 99, 100, 101, 102, 103, 104, 105, 108, 109, 110, 111, 112, 113, 114, 115, 116, 117, 118, 122, 97, 98, 99, 100, 101, 102, 103, 104, 105, 108, 109, 110, 111, 112, 113, 114, 115, 116, 117, 118, 122, 97, 98, 99, 100, 101, 102, 103, 104, 105, 108, 109, 110, 111, 112, 113, 114, 115, 116, 117, 118, 122, 97, 98, 99], .appname [97, 98, 99, 100, 101, 102, 103, 104, 105, 108, 109, 110, 111, 112, 113, 114, 115, 116, 117, 118, 122, 97, 98, 99, 100, 101, 102, 103, 104, 105, 108, 109, 110, 111, 112, 113, 114, 115, 116, 117, 118, 122, 97, 98, 99, 100, 101, 102], .timestamp [50, 48, 49, 56, 45, 49, 50, 45, 51, 49, 84, 50, 51, 58, 53, 57, 58, 53, 57, 46, 57, 57, 57, 57, 57, 57, 45, 50, 51, 58, 53, 57], .procID [97, 98, 99, 100, 101, 102, 103, 104, 105, 108, 109, 110, 111, 112, 113, 114, 115, 116, 117, 118, 122, 97, 98, 99, 100, 101, 102, 103, 104, 105, 108, 109, 110, 111, 112, 113, 114, 115, 116, 117, 118, 122, 97, 98, 99, 100, 101, 102, 103, 104, 105, 108, 109, 110, 111, 112, 113, 114, 115, 116, 117, 118, 122, 97, 98, 99, 100, 101, 102, 103, 104, 105, 108, 109, 110, 111, 112, 113, 114, 115, 116, 117, 118, 122, 97, 98, 99, 100, 101, 102, 103, 104, 105, 108, 109, 110, 111, 112, 113, 114, 115, 116, 117, 118, 122, 97, 98, 99, 100, 101, 102, 103, 104, 105, 108, 109, 110, 111, 112, 113, 114, 115, 116, 117, 118, 122, 97, 98], .msgID [97, 98, 99, 100, 101, 102, 103, 104, 105, 108, 109, 110, 111, 112, 113, 114, 115, 116, 117, 118, 122, 97, 98, 99, 100, 101, 102, 103, 104, 105, 108, 109], .priority 191]) = true := by decide +kernel
/-- rfc5424/machine_test.go:668 `<191>999 2018-12-31T23:59:59.999999-23:59 abcdefghilmnopqrstuvzabcdefghilmnopqrstuvzabcdefghilmnopqrstuvzabcdefghilmnopqrstuvzabcdefghilmnopqrstuvzabcdefghilmnopqrstuvzabcdefghilmnopqrstuvzabcdefghilmnopqrstuvzabcdefghilmnopqrstuvzabcdefghilmnopqrstuvzabcdefghilmnopqrstuvzabcdefghilmnopqrstuvzabc abcdefghilmnopqrstuvzabcdefghilmnopqrstuvzabcdef abcdefghilmnopqrstuvzabcdefghilmnopqrstuvzabcdefghilmnopqrstuvzabcdefghilmnopqrstuvzabcdefghilmnopqrstuvzabcdefghilmnopqrstuvzab abcdefghilmnopqrstuvzabcdefghilm [an@id key1="val1" key2="val2"][another@id key1="val1"] Some message "GET"` -/
example : valid5424 true [60, 49, 57, 49, 62, 57, 57, 57, 32, 50, 48, 49, 56, 45, 49, 50, 45, 51, 49, 84, 50, 51, 58, 53, 57, 58, 53, 57, 46, 57, 57, 57, 57, 57, 57, 45, 50, 51, 58, 53, 57, 32, 97, 98, 99, 100, 101, 102, 103, 104, 105, 108, 109, 110, 111, 112, 113, 114, 115, 116, 117, 118, 122, 97, 98, 99, 100, 101, 102, 103, 104, 105, 108, 109, 110, 111, 112, 113, 114, 115, 116, 117, 118, 122, 97, 98, 99, 100, 101, 102, 103, 104, 105, 108, 109, 110, 111, 112, 113, 114, 115, 116, 117, 118, 122, 97, 98, 99, 100, 101, 102, 103, 104, 105, 108, 109, 110, 111, 112, 113, 114, 115, 116, 117, 118, 122, 97, 98, 99, 100, 101, 102, 103, 104, 105, 108, 109, 110, 111, 112, 113, 114, 115, 116, 117, 118, 122, 97, 98, 99, 100, 101, 102, 103, 104, 105, 108, 109, 110, 111, 112, 113, 114, 115, 116, 117, 118, 122, 97, 98, 99, 100, 101, 102, 103, 104, 105, 108, 109, 110, 111, 112, 113, 114, 115, 116, 117, 118, 122, 97, 98, 99, 100, 101, 102, 103, 104, 105, 108, 109, 110, 111, 112, 113, 114, 115, 116, 117, 118, 122, 97, 98, 99, 100, 101, 102, 103, 104, 105, 108, 109, 110, 111, 112, 113, 114, 115, 116, 117, 118, 122, 97, 98, 99, 100, 101, 102, 103, 104, 105, 108, 109, 110, 111, 112, 113, 114, 115, 116, 117, 118, 122, 97, 98, 99, 100, 101, 102, 103, 104, 105, 108, 109, 110, 111, 112, 113, 114, 115, 116, 117, 118, 122, 97, 98, 99, 100, 101, 102, 103, 104, 105, 108, 109, 110, 111, 112, 113, 114, 115, 116, 117, 118, 122, 97, 98, 99, 32, 97, 98, 99, 100, 101, 102, 103, 104, 105, 108, 109, 110, 111, 112, 113, 114, 115, 116, 117, 118, 122, 97, 98, 99, 100, 101, 102, 103, 104, 105, 108, 109, 110, 111, 112, 113, 114, 115, 116, 117, 118, 122, 97, 98, 99, 100, 101, 102, 32, 97, 98, 99, 100, 101, 102, 103, 104, 105, 108, 109, 110, 111, 112, 113, 114, 115, 116, 117, 118, 122, 97, 98, 99, 100, 101, 102, 103, 104, 105, 108, 109, 110, 111, 112, 113, 114, 115, 116, 117, 118, 122, 97, 98, 99, 100, 101, 102, 103, 104, 105, 108, 109, 110, 111, 112, 113, 114, 115, 116, 117, 118, 122, 97, 98, 99, 100, 101, 102, 103, 104, 105, 108, 109, 110, 111, 112, 113, 114, 115, 116, 117, 118, 122, 97, 98, 99, 100, 101, 102, 103, 104, 105, 108, 109, 110, 111, 112, 113, 114, 115, 116, 117, 118, 122, 97, 98, 99, 100, 101, 102, 103, 104, 105, 108, 109, 110, 111, 112, 113, 114, 115, 116, 117, 118, 122, 97, 98, 32, 97, 98, 99, 100, 101, 102, 103, 104, 105, 108, 109, 110, 111, 112, 113, 114, 115, 116, 117, 118, 122, 97, 98, 99, 100, 101, 102, 103, 104, 105, 108, 109, 32, 91, 97, 110, 64, 105, 100, 32, 107, 101, 121, 49, 61, 34, 118, 97, 108, 49, 34, 32, 107, 101, 121, 50, 61, 34, 118, 97, 108, 50, 34, 93, 91, 97, 110, 111, 116, 104, 101, 114, 64, 105, 100, 32, 107, 101, 121, 49, 61, 34, 118, 97, 108, 49, 34, 93, 32, 83, 111, 109, 101, 32, 109, 101, 115, 115, 97, 103, 101, 32, 34, 71, 69, 84, 34] (built [.version 999, .hostname [97, 98, 99, 100, 101, 102, 103, 104, 105, 108, 109, 110, 111, 112, 113, 114, 115, 116, 117, 118, 122, 97, 98, 99, 100, 101, 102, 103, 104, 105, 108, 109, 110, 111, 112, 113, 114, 115, 116, 117, 118, 122, 97, 98, 99, 100, 101, 102, 103, 104, 105, 108, 109, 110, 111, 112, 113, 114, 115, 116, 117, 118, 122, 97, 98, 99, 100, 101, 102, 103, 104, 105, 108, 109, 110, 111, 112, 113, 114, 115, 116, 117, 118, 122, 97, 98, 99, 100, 101, 102, 103, 104, 105, 108, 109, 110, 111, 112, 113, 114, 115, 116, 117, 118, 122, 97, 98, 99, 100, 101, 102, 103, 104, 105, 108, 109, 110, 111, 112, 113, 114, 115, 116, 117, 118, 122, 97, 98, 99, 100, 101, 102, 103, 104, 105, 108, 109, 110, 111, 112, 113, 114, 115, 116, 117, 118, 122, 97, 98, 99, 100, 101, 102, 103, 104, 105, 108, 109, 110, 111, 112, 113, 114, 115, 116, 117, 118, 122, 97, 98, 99, 100, 101, 102, 103, 104, 105, 108, 109, 110, 111, 112, 113, 114, 115, 116, 117, 118, 122, 97, 98, 99, 100, 101, 102, 103, 104, 105, 108, 109, 110, 111, 112, 113, 114, 115, 116, 117, 118, 122, 97, 98, 99, 100, 101, 102, 103, 104, 105, 108, 109, 110, 111, 112, 113, 114, 115, 116, 117, 118, 122, 97, 98, 99, 100, 101, 102, 103, 104, 105, 108, 109, 110, 111, 112, 113, 114, 115, 116, 117, 118, 122, 97, 98, 99], .appname [97, 98, 99, 100, 101, 102, 103, 104, 105, 108, 109, 110, 111, 112, 113, 114, 115, 116, 117, 118, 122, 97, 98, 99, 100, 101, 102, 103, 104, 105, 108, 109, 110, 111, 112, 113, 114, 115, 116, 117, 118, 122, 97, 98, 99, 100, 101, 102], .timestamp [50, 48, 49, 56, 45, 49, 50, 45, 51, 49, 84, 50, 51, 58, 53, 57, 58, 53, 57, 46, 57, 57, 57, 57, 57, 57, 45, 50, 51, 58, 53, 57], .procID [97, 98, 99, 100, 101, 102, 103, 104, 105, 108, 109, 110, 111, 112, 113, 114, 115, 116, 117, 118, 122, 97, 98, 99, 100, 101, 102, 103, 104, 105, 108, 109, 110, 111, 112, 113, 114, 115, 116, 117, 118, 122, 97, 98, 99, 100, 101, 102, 103, 104, 105, 108, 109, 110, 111, 112, 113, 114, 115, 116, 117, 118, 122, 97, 98, 99, 100, 101, 102, 103, 104, 105, 108, 109, 110, 111, 112, 113, 114, 115, 116, 117, 118, 122, 97, 98, 99, 100, 101, 102, 103, 104, 105, 108, 109, 110, 111, 112, 113, 114, 115, 116, 117, 118, 122, 97, 98, 99, 100, 101, 102, 103, 104, 105, 108, 109, 110, 111, 112, 113, 114, 115, 116, 117, 118, 122, 97, 98], .msgID [97, 98, 99, 100, 101, 102, 103, 104, 105, 108, 109, 110, 111, 112, 113, 114, 115, 116, 117, 118, 122, 97, 98, 99, 100, 101, 102, 103, 104, 105, 108, 109], .parameter [97, 110, 64, 105, 100] [107, 101, 121, 49] [118, 97, 108, 49], .parameter [97, 110, 64, 105, 100] [107, 101, 121, 50] [118, 97, 108, 50], .parameter [97, 110, 111, 116, 104, 101, 114, 64, 105, 100] [107, 101, 121, 49] [118, 97, 108, 49], .message [83, 111, 109, 101, 32, 109, 101, 115, 115, 97, 103, 101, 32, 34, 71, 69, 84, 34], .priority 191]) = true := by decide +kernel
/-- rfc5424/machine_test.go:687 `<34>1 2003-10-11T22:14:15.003Z mymachine.example.com su - ID47 - BOM'su root' failed for lonvick on /dev/pts/8` -/
example : valid5424 true [60, 51, 52, 62, 49, 32, 50, 48, 48, 51, 45, 49, 48, 45, 49, 49, 84, 50, 50, 58, 49, 52, 58, 49, 53, 46, 48, 48, 51, 90, 32, 109, 121, 109, 97, 99, 104, 105, 110, 101, 46, 101, 120, 97, 109, 112, 108, 101, 46, 99, 111, 109, 32, 115, 117, 32, 45, 32, 73, 68, 52, 55, 32, 45, 32, 66, 79, 77, 39, 115, 117, 32, 114, 111, 111, 116, 39, 32, 102, 97, 105, 108, 101, 100, 32, 102, 111, 114, 32, 108, 111, 110, 118, 105, 99, 107, 32, 111, 110, 32, 47, 100, 101, 118, 47, 112, 116, 115, 47, 56] (built [.version 1, .hostname [109, 121, 109, 97, 99, 104, 105, 110, 101, 46, 101, 120, 97, 109, 112, 108, 101, 46, 99, 111, 109], .appname [115, 117], .timestamp [50, 48, 48, 51, 45, 49, 48, 45, 49, 49, 84, 50, 50, 58, 49, 52, 58, 49, 53, 46, 48, 48, 51, 90], .msgID [73, 68, 52, 55], .message [66, 79, 77, 39, 115, 117, 32, 114, 111, 111, 116, 39, 32, 102, 97, 105, 108, 101, 100, 32, 102, 111, 114, 32, 108, 111, 110, 118, 105, 99, 107, 32, 111, 110, 32, 47, 100, 101, 118, 47, 112, 116, 115, 47, 56], .priority 34]) = true := by decide +kernel
/-- rfc5424/machine_test.go:702 `<187>222 - mymachine.example.com su - ID47 - 'su root' failed for lonvick on /dev/pts/8` -/
example : valid5424 true [60, 49, 56, 55, 62, 50, 50, 50, 32, 45, 32, 109, 121, 109, 97, 99, 104, 105, 110, 101, 46, 101, 120, 97, 109, 112, 108, 101, 46, 99, 111, 109, 32, 115, 117, 32, 45, 32, 73, 68, 52, 55, 32, 45, 32, 39, 115, 117, 32, 114, 111, 111, 116, 39, 32, 102, 97, 105, 108, 101, 100, 32, 102, 111, 114, 32, 108, 111, 110, 118, 105, 99, 107, 32, 111, 110, 32, 47, 100, 101, 118, 47, 112, 116, 115, 47, 56] (built [.version 222, .hostname [109, 121, 109, 97, 99, 104, 105, 110, 101, 46, 101, 120, 97, 109, 112, 108, 101, 46, 99, 111, 109], .appname [115, 117], .msgID [73, 68, 52, 55], .message [39, 115, 117, 32, 114, 111, 111, 116, 39, 32, 102, 97, 105, 108, 101, 100, 32, 102, 111, 114, 32, 108, 111, 110, 118, 105, 99, 107, 32, 111, 110, 32, 47, 100, 101, 118, 47, 112, 116, 115, 47, 56], .priority 187]) = true := by decide +kernel
/-- rfc5424/machine_test.go:716 `<165>1 2003-08-24T05:14:15.000003-07:00 192.0.2.1 myproc 8710 - - %% Time to make the do-nuts.` -/
example : valid5424 true [60, 49, 54, 53, 62, 49, 32, 50, 48, 48, 51, 45, 48, 56, 45, 50, 52, 84, 48, 53, 58, 49, 52, 58, 49, 53, 46, 48, 48, 48, 48, 48, 51, 45, 48, 55, 58, 48, 48, 32, 49, 57, 50, 46, 48, 46, 50, 46, 49, 32, 109, 121, 112, 114, 111, 99, 32, 56, 55, 49, 48, 32, 45, 32, 45, 32, 37, 37, 32, 84, 105, 109, 101, 32, 116, 111, 32, 109, 97, 107, 101, 32, 116, 104, 101, 32, 100, 111, 45, 110, 117, 116, 115, 46] (built [.version 1, .hostname [49, 57, 50, 46, 48, 46, 50, 46, 49], .appname [109, 121, 112, 114, 111, 99], .timestamp [50, 48, 48, 51, 45, 48, 56, 45, 50, 52, 84, 48, 53, 58, 49, 52, 58, 49, 53, 46, 48, 48, 48, 48, 48, 51, 45, 48, 55, 58, 48, 48], .procID [56, 55, 49, 48], .message [37, 37, 32, 84, 105, 109, 101, 32, 116, 111, 32, 109, 97, 107, 101, 32, 116, 104, 101, 32, 100, 111, 45, 110, 117, 116, 115, 46], .priority 165]) = true := by decide +kernel
/-- rfc5424/machine_test.go:731 `<165>2 2003-08-24T05:14:15.000003-07:00 - - - - -` -/
example : valid5424 true [60, 49, 54, 53, 62, 50, 32, 50, 48, 48, 51, 45, 48, 56, 45, 50, 52, 84, 48, 53, 58, 49, 52, 58, 49, 53, 46, 48, 48, 48, 48, 48, 51, 45, 48, 55, 58, 48, 48, 32, 45, 32, 45, 32, 45, 32, 45, 32, 45] (built [.version 2, .timestamp [50, 48, 48, 51, 45, 48, 56, 45, 50, 52, 84, 48, 53, 58, 49, 52, 58, 49, 53, 46, 48, 48, 48, 48, 48, 51, 45, 48, 55, 58, 48, 48], .priority 165]) = true := by decide +kernel
/-- rfc5424/machine_test.go:742 `<165>222 2003-08-24T05:14:15.000002-01:00 - - - - - ` -/
example : valid5424 true [60, 49, 54, 53, 62, 50, 50, 50, 32, 50, 48, 48, 51, 45, 48, 56, 45, 50, 52, 84, 48, 53, 58, 49, 52, 58, 49, 53, 46, 48, 48, 48, 48, 48, 50, 45, 48, 49, 58, 48, 48, 32, 45, 32, 45, 32, 45, 32, 45, 32, 45, 32] (built [.version 222, .timestamp [50, 48, 48, 51, 45, 48, 56, 45, 50, 52, 84, 48, 53, 58, 49, 52, 58, 49, 53, 46, 48, 48, 48, 48, 48, 50, 45, 48, 49, 58, 48, 48], .priority 165]) = true := by decide +kernel

end Verif.Conformance
