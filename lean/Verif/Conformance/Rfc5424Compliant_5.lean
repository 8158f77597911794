import Verif.Conformance.Basic

/-!
# `TestMachineParseWithCompliantMsgOn`, `TestMachineParseWithCompliantMsgOff` (rfc5424/machine_test.go)

Written by `tools/conform.py`; do not edit. One `example` per test case of the repository, with the line of the case.
-/

namespace Verif.Conformance
open Verif.Builder (Call)

/-- rfc5424/machine_test.go:987 `<29>1 2016-01-15T01:00:43Z some-host-name SEKRETPROGRAM prg - [origin x-service="svcname"][meta sequenceId="1"] 127.0.0.1 - - 1452819643 "GET"` -/
example : valid5424 true [60, 50, 57, 62, 49, 32, 50, 48, 49, 54, 45, 48, 49, 45, 49, 53, 84, 48, 49, 58, 48, 48, 58, 52, 51, 90, 32, 115, 111, 109, 101, 45, 104, 111, 115, 116, 45, 110, 97, 109, 101, 32, 83, 69, 75, 82, 69, 84, 80, 82, 79, 71, 82, 65, 77, 32, 112, 114, 103, 32, 45, 32, 91, 111, 114, 105, 103, 105, 110, 32, 120, 45, 115, 101, 114, 118, 105, 99, 101, 61, 34, 115, 118, 99, 110, 97, 109, 101, 34, 93, 91, 109, 101, 116, 97, 32, 115, 101, 113, 117, 101, 110, 99, 101, 73, 100, 61, 34, 49, 34, 93, 32, 49, 50, 55, 46, 48, 46, 48, 46, 49, 32, 45, 32, 45, 32, 49, 52, 53, 50, 56, 49, 57, 54, 52, 51, 32, 34, 71, 69, 84, 34] (built [.version 1, .message [49, 50, 55, 46, 48, 46, 48, 46, 49, 32, 45, 32, 45, 32, 49, 52, 53, 50, 56, 49, 57, 54, 52, 51, 32, 34, 71, 69, 84, 34], .timestamp [50, 48, 49, 54, 45, 48, 49, 45, 49, 53, 84, 48, 49, 58, 48, 48, 58, 52, 51, 90], .hostname [115, 111, 109, 101, 45, 104, 111, 115, 116, 45, 110, 97, 109, 101], .appname [83, 69, 75, 82, 69, 84, 80, 82, 79, 71, 82, 65, 77], .procID [112, 114, 103], .parameter [111, 114, 105, 103, 105, 110] [120, 45, 115, 101, 114, 118, 105, 99, 101] [115, 118, 99, 110, 97, 109, 101], .parameter [109, 101, 116, 97] [115, 101, 113, 117, 101, 110, 99, 101, 73, 100] [49], .priority 29]) = true := by decide +kernel
/-- rfc5424/machine_test.go:1004 `<1>1 - - - - - [id pk=""]` -/
example : valid5424 true [60, 49, 62, 49, 32, 45, 32, 45, 32, 45, 32, 45, 32, 45, 32, 91, 105, 100, 32, 112, 107, 61, 34, 34, 93] (built [.version 1, .parameter [105, 100] [112, 107] ([] : Bytes), .priority 1]) = true := by decide +kernel
/-- rfc5424/machine_test.go:1012 `<29>2 2016-01-15T01:00:44Z some-host-name SEKRETPROGRAM prg - [meta escape="\\]"] some "mex"` -/
example : valid5424 true [60, 50, 57, 62, 50, 32, 50, 48, 49, 54, 45, 48, 49, 45, 49, 53, 84, 48, 49, 58, 48, 48, 58, 52, 52, 90, 32, 115, 111, 109, 101, 45, 104, 111, 115, 116, 45, 110, 97, 109, 101, 32, 83, 69, 75, 82, 69, 84, 80, 82, 79, 71, 82, 65, 77, 32, 112, 114, 103, 32, 45, 32, 91, 109, 101, 116, 97, 32, 101, 115, 99, 97, 112, 101, 61, 34, 92, 93, 34, 93, 32, 115, 111, 109, 101, 32, 34, 109, 101, 120, 34] (built [.version 2, .message [115, 111, 109, 101, 32, 34, 109, 101, 120, 34], .timestamp [50, 48, 49, 54, 45, 48, 49, 45, 49, 53, 84, 48, 49, 58, 48, 48, 58, 52, 52, 90], .hostname [115, 111, 109, 101, 45, 104, 111, 115, 116, 45, 110, 97, 109, 101], .appname [83, 69, 75, 82, 69, 84, 80, 82, 79, 71, 82, 65, 77], .procID [112, 114, 103], .parameter [109, 101, 116, 97] [101, 115, 99, 97, 112, 101] [92, 93], .priority 29]) = true := by decide +kernel
/-- rfc5424/machine_test.go:1019 `<29>2 2016-01-15T01:00:43Z some-host-name SEKRETPROGRAM prg - [meta escape="\\\\"]` -/
example : valid5424 true [60, 50, 57, 62, 50, 32, 50, 48, 49, 54, 45, 48, 49, 45, 49, 53, 84, 48, 49, 58, 48, 48, 58, 52, 51, 90, 32, 115, 111, 109, 101, 45, 104, 111, 115, 116, 45, 110, 97, 109, 101, 32, 83, 69, 75, 82, 69, 84, 80, 82, 79, 71, 82, 65, 77, 32, 112, 114, 103, 32, 45, 32, 91, 109, 101, 116, 97, 32, 101, 115, 99, 97, 112, 101, 61, 34, 92, 92, 34, 93] (built [.version 2, .timestamp [50, 48, 49, 54, 45, 48, 49, 45, 49, 53, 84, 48, 49, 58, 48, 48, 58, 52, 51, 90], .hostname [115, 111, 109, 101, 45, 104, 111, 115, 116, 45, 110, 97, 109, 101], .appname [83, 69, 75, 82, 69, 84, 80, 82, 79, 71, 82, 65, 77], .procID [112, 114, 103], .parameter [109, 101, 116, 97] [101, 115, 99, 97, 112, 101] [92, 92], .priority 29]) = true := by decide +kernel
/-- rfc5424/machine_test.go:1026 `<29>2 2016-01-15T01:00:43Z some-host-name SEKRETPROGRAM prg - [meta escape="\\""]` -/
example : valid5424 true [60, 50, 57, 62, 50, 32, 50, 48, 49, 54, 45, 48, 49, 45, 49, 53, 84, 48, 49, 58, 48, 48, 58, 52, 51, 90, 32, 115, 111, 109, 101, 45, 104, 111, 115, 116, 45, 110, 97, 109, 101, 32, 83, 69, 75, 82, 69, 84, 80, 82, 79, 71, 82, 65, 77, 32, 112, 114, 103, 32, 45, 32, 91, 109, 101, 116, 97, 32, 101, 115, 99, 97, 112, 101, 61, 34, 92, 34, 34, 93] (built [.version 2, .timestamp [50, 48, 49, 54, 45, 48, 49, 45, 49, 53, 84, 48, 49, 58, 48, 48, 58, 52, 51, 90], .hostname [115, 111, 109, 101, 45, 104, 111, 115, 116, 45, 110, 97, 109, 101], .appname [83, 69, 75, 82, 69, 84, 80, 82, 79, 71, 82, 65, 77], .procID [112, 114, 103], .parameter [109, 101, 116, 97] [101, 115, 99, 97, 112, 101] [92, 34], .priority 29]) = true := by decide +kernel
/-- rfc5424/machine_test.go:1033 `<29>2 2016-01-15T01:00:43Z some-host-name SEKRETPROGRAM prg - [meta escape="\\]\\"\\\\\\\\\\]\\""]` -/
example : valid5424 true [60, 50, 57, 62, 50, 32, 50, 48, 49, 54, 45, 48, 49, 45, 49, 53, 84, 48, 49, 58, 48, 48, 58, 52, 51, 90, 32, 115, 111, 109, 101, 45, 104, 111, 115, 116, 45, 110, 97, 109, 101, 32, 83, 69, 75, 82, 69, 84, 80, 82, 79, 71, 82, 65, 77, 32, 112, 114, 103, 32, 45, 32, 91, 109, 101, 116, 97, 32, 101, 115, 99, 97, 112, 101, 61, 34, 92, 93, 92, 34, 92, 92, 92, 92, 92, 93, 92, 34, 34, 93] (built [.version 2, .timestamp [50, 48, 49, 54, 45, 48, 49, 45, 49, 53, 84, 48, 49, 58, 48, 48, 58, 52, 51, 90], .hostname [115, 111, 109, 101, 45, 104, 111, 115, 116, 45, 110, 97, 109, 101], .appname [83, 69, 75, 82, 69, 84, 80, 82, 79, 71, 82, 65, 77], .procID [112, 114, 103], .parameter [109, 101, 116, 97] [101, 115, 99, 97, 112, 101] [92, 93, 92, 34, 92, 92, 92, 92, 92, 93, 92, 34], .priority 29]) = true := by decide +kernel
/-- rfc5424/machine_test.go:1041 `<29>3 2016-01-15T01:00:43Z hn S - - [meta escape="]"] 127.0.0.1 - - 1452819643 "GET"` -/
example : invalid5424 true [60, 50, 57, 62, 51, 32, 50, 48, 49, 54, 45, 48, 49, 45, 49, 53, 84, 48, 49, 58, 48, 48, 58, 52, 51, 90, 32, 104, 110, 32, 83, 32, 45, 32, 45, 32, 91, 109, 101, 116, 97, 32, 101, 115, 99, 97, 112, 101, 61, 34, 93, 34, 93, 32, 49, 50, 55, 46, 48, 46, 48, 46, 49, 32, 45, 32, 45, 32, 49, 52, 53, 50, 56, 49, 57, 54, 52, 51, 32, 34, 71, 69, 84, 34] ⟨.escape, 50⟩ (some (built [.version 3, .timestamp [50, 48, 49, 54, 45, 48, 49, 45, 49, 53, 84, 48, 49, 58, 48, 48, 58, 52, 51, 90], .hostname [104, 110], .appname [83], .elementID [109, 101, 116, 97], .priority 29])) = true := by decide +kernel
/-- rfc5424/machine_test.go:1048 `<29>5 2016-01-15T01:00:43Z hn S - - [meta escape="]q"] 127.0.0.1 - - 1452819643 "GET"` -/
example : invalid5424 true [60, 50, 57, 62, 53, 32, 50, 48, 49, 54, 45, 48, 49, 45, 49, 53, 84, 48, 49, 58, 48, 48, 58, 52, 51, 90, 32, 104, 110, 32, 83, 32, 45, 32, 45, 32, 91, 109, 101, 116, 97, 32, 101, 115, 99, 97, 112, 101, 61, 34, 93, 113, 34, 93, 32, 49, 50, 55, 46, 48, 46, 48, 46, 49, 32, 45, 32, 45, 32, 49, 52, 53, 50, 56, 49, 57, 54, 52, 51, 32, 34, 71, 69, 84, 34] ⟨.escape, 50⟩ (some (built [.version 5, .timestamp [50, 48, 49, 54, 45, 48, 49, 45, 49, 53, 84, 48, 49, 58, 48, 48, 58, 52, 51, 90], .hostname [104, 110], .appname [83], .elementID [109, 101, 116, 97], .priority 29])) = true := by decide +kernel
/-- rfc5424/machine_test.go:1055 `<29>4 2016-01-15T01:00:43Z hn S - - [meta escape="p]"] 127.0.0.1 - - 1452819643 "GET"` -/
example : invalid5424 true [60, 50, 57, 62, 52, 32, 50, 48, 49, 54, 45, 48, 49, 45, 49, 53, 84, 48, 49, 58, 48, 48, 58, 52, 51, 90, 32, 104, 110, 32, 83, 32, 45, 32, 45, 32, 91, 109, 101, 116, 97, 32, 101, 115, 99, 97, 112, 101, 61, 34, 112, 93, 34, 93, 32, 49, 50, 55, 46, 48, 46, 48, 46, 49, 32, 45, 32, 45, 32, 49, 52, 53, 50, 56, 49, 57, 54, 52, 51, 32, 34, 71, 69, 84, 34] ⟨.escape, 51⟩ (some (built [.version 4, .timestamp [50, 48, 49, 54, 45, 48, 49, 45, 49, 53, 84, 48, 49, 58, 48, 48, 58, 52, 51, 90], .hostname [104, 110], .appname [83], .elementID [109, 101, 116, 97], .priority 29])) = true := by decide +kernel
/-- rfc5424/machine_test.go:1063 `<29>4 2017-01-15T01:00:43Z hn S - - [meta escape="""] 127.0.0.1 - - 1452819643 "GET"` -/
example : invalid5424 true [60, 50, 57, 62, 52, 32, 50, 48, 49, 55, 45, 48, 49, 45, 49, 53, 84, 48, 49, 58, 48, 48, 58, 52, 51, 90, 32, 104, 110, 32, 83, 32, 45, 32, 45, 32, 91, 109, 101, 116, 97, 32, 101, 115, 99, 97, 112, 101, 61, 34, 34, 34, 93, 32, 49, 50, 55, 46, 48, 46, 48, 46, 49, 32, 45, 32, 45, 32, 49, 52, 53, 50, 56, 49, 57, 54, 52, 51, 32, 34, 71, 69, 84, 34] ⟨.sdParam, 51⟩ (some (built [.version 4, .timestamp [50, 48, 49, 55, 45, 48, 49, 45, 49, 53, 84, 48, 49, 58, 48, 48, 58, 52, 51, 90], .hostname [104, 110], .appname [83], .elementID [109, 101, 116, 97], .priority 29])) = true := by decide +kernel
/-- rfc5424/machine_test.go:1070 `<29>6 2016-01-15T01:00:43Z hn S - - [meta escape="a""] 127.0.0.1 - - 1452819643 "GET"` -/
example : invalid5424 true [60, 50, 57, 62, 54, 32, 50, 48, 49, 54, 45, 48, 49, 45, 49, 53, 84, 48, 49, 58, 48, 48, 58, 52, 51, 90, 32, 104, 110, 32, 83, 32, 45, 32, 45, 32, 91, 109, 101, 116, 97, 32, 101, 115, 99, 97, 112, 101, 61, 34, 97, 34, 34, 93, 32, 49, 50, 55, 46, 48, 46, 48, 46, 49, 32, 45, 32, 45, 32, 49, 52, 53, 50, 56, 49, 57, 54, 52, 51, 32, 34, 71, 69, 84, 34] ⟨.sdParam, 52⟩ (some (built [.version 6, .timestamp [50, 48, 49, 54, 45, 48, 49, 45, 49, 53, 84, 48, 49, 58, 48, 48, 58, 52, 51, 90], .hostname [104, 110], .appname [83], .elementID [109, 101, 116, 97], .priority 29])) = true := by decide +kernel
/-- rfc5424/machine_test.go:1077 `<29>4 2018-01-15T01:00:43Z hn S - - [meta escape=""b"] 127.0.0.1 - - 1452819643 "GET"` -/
example : invalid5424 true [60, 50, 57, 62, 52, 32, 50, 48, 49, 56, 45, 48, 49, 45, 49, 53, 84, 48, 49, 58, 48, 48, 58, 52, 51, 90, 32, 104, 110, 32, 83, 32, 45, 32, 45, 32, 91, 109, 101, 116, 97, 32, 101, 115, 99, 97, 112, 101, 61, 34, 34, 98, 34, 93, 32, 49, 50, 55, 46, 48, 46, 48, 46, 49, 32, 45, 32, 45, 32, 49, 52, 53, 50, 56, 49, 57, 54, 52, 51, 32, 34, 71, 69, 84, 34] ⟨.sdParam, 51⟩ (some (built [.version 4, .timestamp [50, 48, 49, 56, 45, 48, 49, 45, 49, 53, 84, 48, 49, 58, 48, 48, 58, 52, 51, 90], .hostname [104, 110], .appname [83], .elementID [109, 101, 116, 97], .priority 29])) = true := by decide +kernel
/-- rfc5424/machine_test.go:1085 `<29>5 2019-01-15T01:00:43Z hn S - - [meta escape="\\"] 127.0.0.1 - - 1452819643 "GET"` -/
example : invalid5424 true [60, 50, 57, 62, 53, 32, 50, 48, 49, 57, 45, 48, 49, 45, 49, 53, 84, 48, 49, 58, 48, 48, 58, 52, 51, 90, 32, 104, 110, 32, 83, 32, 45, 32, 45, 32, 91, 109, 101, 116, 97, 32, 101, 115, 99, 97, 112, 101, 61, 34, 92, 34, 93, 32, 49, 50, 55, 46, 48, 46, 48, 46, 49, 32, 45, 32, 45, 32, 49, 52, 53, 50, 56, 49, 57, 54, 52, 51, 32, 34, 71, 69, 84, 34] ⟨.escape, 52⟩ (some (built [.version 5, .timestamp [50, 48, 49, 57, 45, 48, 49, 45, 49, 53, 84, 48, 49, 58, 48, 48, 58, 52, 51, 90], .hostname [104, 110], .appname [83], .elementID [109, 101, 116, 97], .priority 29])) = true := by decide +kernel
/-- rfc5424/machine_test.go:1092 `<29>7 2019-01-15T01:00:43Z hn S - - [meta escape="a\\"] 127.0.0.1 - - 1452819643 "GET"` -/
example : invalid5424 true [60, 50, 57, 62, 55, 32, 50, 48, 49, 57, 45, 48, 49, 45, 49, 53, 84, 48, 49, 58, 48, 48, 58, 52, 51, 90, 32, 104, 110, 32, 83, 32, 45, 32, 45, 32, 91, 109, 101, 116, 97, 32, 101, 115, 99, 97, 112, 101, 61, 34, 97, 92, 34, 93, 32, 49, 50, 55, 46, 48, 46, 48, 46, 49, 32, 45, 32, 45, 32, 49, 52, 53, 50, 56, 49, 57, 54, 52, 51, 32, 34, 71, 69, 84, 34] ⟨.escape, 53⟩ (some (built [.version 7, .timestamp [50, 48, 49, 54, 45, 48, 49, 45, 49, 53, 84, 48, 49, 58, 48, 48, 58, 52, 51, 90], .hostname [104, 110], .timestamp [50, 48, 49, 57, 45, 48, 49, 45, 49, 53, 84, 48, 49, 58, 48, 48, 58, 52, 51, 90], .appname [83], .elementID [109, 101, 116, 97], .priority 29])) = true := by decide +kernel
/-- rfc5424/machine_test.go:1099 `<29>8 2016-01-15T01:00:43Z hn S - - [meta escape="\\n"] 127.0.0.1 - - 1452819643 "GET"` -/
example : invalid5424 true [60, 50, 57, 62, 56, 32, 50, 48, 49, 54, 45, 48, 49, 45, 49, 53, 84, 48, 49, 58, 48, 48, 58, 52, 51, 90, 32, 104, 110, 32, 83, 32, 45, 32, 45, 32, 91, 109, 101, 116, 97, 32, 101, 115, 99, 97, 112, 101, 61, 34, 92, 110, 34, 93, 32, 49, 50, 55, 46, 48, 46, 48, 46, 49, 32, 45, 32, 45, 32, 49, 52, 53, 50, 56, 49, 57, 54, 52, 51, 32, 34, 71, 69, 84, 34] ⟨.escape, 51⟩ (some (built [.version 8, .timestamp [50, 48, 49, 54, 45, 48, 49, 45, 49, 53, 84, 48, 49, 58, 48, 48, 58, 52, 51, 90], .hostname [104, 110], .appname [83], .elementID [109, 101, 116, 97], .priority 29])) = true := by decide +kernel
/-- rfc5424/machine_test.go:1107 `<1>8 - - - - - - \xef\xbb\xbf` -/
example : valid5424 true [60, 49, 62, 56, 32, 45, 32, 45, 32, 45, 32, 45, 32, 45, 32, 45, 32, 239, 187, 191] (built [.version 8, .message [239, 187, 191], .priority 1]) = true := by decide +kernel
/-- rfc5424/machine_test.go:1115 `<1>1 - - - - - - \xef\xbb\xbf\xce\xba\xe1\xbd\xb9\xcf\x83\xce\xbc\xce\xb5` -/
example : valid5424 true [60, 49, 62, 49, 32, 45, 32, 45, 32, 45, 32, 45, 32, 45, 32, 45, 32, 239, 187, 191, 206, 186, 225, 189, 185, 207, 131, 206, 188, 206, 181] (built [.version 1, .message [239, 187, 191, 206, 186, 225, 189, 185, 207, 131, 206, 188, 206, 181], .priority 1]) = true := by decide +kernel
/-- rfc5424/machine_test.go:1123 `<1>1 - - - - - - \xef\xbb\xbf\xc2\x80` -/
example : valid5424 true [60, 49, 62, 49, 32, 45, 32, 45, 32, 45, 32, 45, 32, 45, 32, 45, 32, 239, 187, 191, 194, 128] (built [.version 1, .message [239, 187, 191, 194, 128], .priority 1]) = true := by decide +kernel
/-- rfc5424/machine_test.go:1131 `<1>1 - - - - - - \xef\xbb\xbf\xc3\xb1` -/
example : valid5424 true [60, 49, 62, 49, 32, 45, 32, 45, 32, 45, 32, 45, 32, 45, 32, 45, 32, 239, 187, 191, 195, 177] (built [.version 1, .message [239, 187, 191, 195, 177], .priority 1]) = true := by decide +kernel
/-- rfc5424/machine_test.go:1139 `<1>1 - - - - - - \xef\xbb\xbf\xe2\x82\xa1` -/
example : valid5424 true [60, 49, 62, 49, 32, 45, 32, 45, 32, 45, 32, 45, 32, 45, 32, 45, 32, 239, 187, 191, 226, 130, 161] (built [.version 1, .message [239, 187, 191, 226, 130, 161], .priority 1]) = true := by decide +kernel
/-- rfc5424/machine_test.go:1147 `<3>1 - - - - - - \xef\xbb\xbf \xf0\x90\x8c\xbc` -/
example : valid5424 true [60, 51, 62, 49, 32, 45, 32, 45, 32, 45, 32, 45, 32, 45, 32, 45, 32, 239, 187, 191, 32, 240, 144, 140, 188] (built [.version 1, .message [239, 187, 191, 32, 240, 144, 140, 188], .priority 3]) = true := by decide +kernel
/-- rfc5424/machine_test.go:1155 `<1>1 - - - - - - \xef\xbb\xbf\xc8\x80000` -/
example : valid5424 true [60, 49, 62, 49, 32, 45, 32, 45, 32, 45, 32, 45, 32, 45, 32, 45, 32, 239, 187, 191, 200, 128, 48, 48, 48] (built [.version 1, .message [239, 187, 191, 200, 128, 48, 48, 48], .priority 1]) = true := by decide +kernel
/-- rfc5424/machine_test.go:1163 `<1>1 - - - - - - \xef\xbb\xbf\xe4\x80\x80000` -/
example : valid5424 true [60, 49, 62, 49, 32, 45, 32, 45, 32, 45, 32, 45, 32, 45, 32, 45, 32, 239, 187, 191, 228, 128, 128, 48, 48, 48] (built [.version 1, .message [239, 187, 191, 228, 128, 128, 48, 48, 48], .priority 1]) = true := by decide +kernel
/-- rfc5424/machine_test.go:1171 `<1>1 - - - - - - \xef\xbb\xbf\xc4\x90000` -/
example : valid5424 true [60, 49, 62, 49, 32, 45, 32, 45, 32, 45, 32, 45, 32, 45, 32, 45, 32, 239, 187, 191, 196, 144, 48, 48, 48] (built [.version 1, .message [239, 187, 191, 196, 144, 48, 48, 48], .priority 1]) = true := by decide +kernel
/-- rfc5424/machine_test.go:1178 `<1>1 - - - - - - \xef\xbb\xbf\r7FF` -/
example : valid5424 true [60, 49, 62, 49, 32, 45, 32, 45, 32, 45, 32, 45, 32, 45, 32, 45, 32, 239, 187, 191, 13, 55, 70, 70] (built [.version 1, .message [239, 187, 191, 13, 55, 70, 70], .priority 1]) = true := by decide +kernel

end Verif.Conformance
