import Verif.Conformance.Basic

/-!
# `TestMachineParse` (rfc5424/machine_test.go)

Written by `tools/conform.py`; do not edit. One `example` per test case of the repository, with the line of the case.
-/

namespace Verif.Conformance
open Verif.Builder (Call)

/-- rfc5424/machine_test.go:753 `<78>5 2016-01-15T00:04:01+00:00 host1 CROND 10391 - [sdid] some_message` -/
example : valid5424 false [60, 55, 56, 62, 53, 32, 50, 48, 49, 54, 45, 48, 49, 45, 49, 53, 84, 48, 48, 58, 48, 52, 58, 48, 49, 43, 48, 48, 58, 48, 48, 32, 104, 111, 115, 116, 49, 32, 67, 82, 79, 78, 68, 32, 49, 48, 51, 57, 49, 32, 45, 32, 91, 115, 100, 105, 100, 93, 32, 115, 111, 109, 101, 95, 109, 101, 115, 115, 97, 103, 101] (built [.version 5, .hostname [104, 111, 115, 116, 49], .appname [67, 82, 79, 78, 68], .timestamp [50, 48, 49, 54, 45, 48, 49, 45, 49, 53, 84, 48, 48, 58, 48, 52, 58, 48, 49, 43, 48, 48, 58, 48, 48], .procID [49, 48, 51, 57, 49], .message [115, 111, 109, 101, 95, 109, 101, 115, 115, 97, 103, 101], .elementID [115, 100, 105, 100], .priority 78]) = true := by decide +kernel
/-- rfc5424/machine_test.go:769 `<78>1 2016-01-15T00:04:01+00:00 host1 CROND 10391 - [sdid x="\xe2\x8c\x98"] some_message` -/
example : valid5424 false [60, 55, 56, 62, 49, 32, 50, 48, 49, 54, 45, 48, 49, 45, 49, 53, 84, 48, 48, 58, 48, 52, 58, 48, 49, 43, 48, 48, 58, 48, 48, 32, 104, 111, 115, 116, 49, 32, 67, 82, 79, 78, 68, 32, 49, 48, 51, 57, 49, 32, 45, 32, 91, 115, 100, 105, 100, 32, 120, 61, 34, 226, 140, 152, 34, 93, 32, 115, 111, 109, 101, 95, 109, 101, 115, 115, 97, 103, 101] (built [.version 1, .hostname [104, 111, 115, 116, 49], .appname [67, 82, 79, 78, 68], .timestamp [50, 48, 49, 54, 45, 48, 49, 45, 49, 53, 84, 48, 48, 58, 48, 52, 58, 48, 49, 43, 48, 48, 58, 48, 48], .procID [49, 48, 51, 57, 49], .message [115, 111, 109, 101, 95, 109, 101, 115, 115, 97, 103, 101], .parameter [115, 100, 105, 100] [120] [226, 140, 152], .priority 78]) = true := by decide +kernel
/-- rfc5424/machine_test.go:785 `<78>2 2016-01-15T00:04:01+00:00 host1 CROND 10391 - [sdid x="hey \\\\u2318 hey"] some_message` -/
example : valid5424 false [60, 55, 56, 62, 50, 32, 50, 48, 49, 54, 45, 48, 49, 45, 49, 53, 84, 48, 48, 58, 48, 52, 58, 48, 49, 43, 48, 48, 58, 48, 48, 32, 104, 111, 115, 116, 49, 32, 67, 82, 79, 78, 68, 32, 49, 48, 51, 57, 49, 32, 45, 32, 91, 115, 100, 105, 100, 32, 120, 61, 34, 104, 101, 121, 32, 92, 92, 117, 50, 51, 49, 56, 32, 104, 101, 121, 34, 93, 32, 115, 111, 109, 101, 95, 109, 101, 115, 115, 97, 103, 101] (built [.version 2, .hostname [104, 111, 115, 116, 49], .appname [67, 82, 79, 78, 68], .timestamp [50, 48, 49, 54, 45, 48, 49, 45, 49, 53, 84, 48, 48, 58, 48, 52, 58, 48, 49, 43, 48, 48, 58, 48, 48], .procID [49, 48, 51, 57, 49], .message [115, 111, 109, 101, 95, 109, 101, 115, 115, 97, 103, 101], .parameter [115, 100, 105, 100] [120] [104, 101, 121, 32, 92, 92, 117, 50, 51, 49, 56, 32, 104, 101, 121], .priority 78]) = true := by decide +kernel
/-- rfc5424/machine_test.go:801 `<29>50 2016-01-15T01:00:43Z hn S - - [meta es="\\\\valid"] 127.0.0.1 - - 1452819643 "GET"` -/
example : valid5424 false [60, 50, 57, 62, 53, 48, 32, 50, 48, 49, 54, 45, 48, 49, 45, 49, 53, 84, 48, 49, 58, 48, 48, 58, 52, 51, 90, 32, 104, 110, 32, 83, 32, 45, 32, 45, 32, 91, 109, 101, 116, 97, 32, 101, 115, 61, 34, 92, 92, 118, 97, 108, 105, 100, 34, 93, 32, 49, 50, 55, 46, 48, 46, 48, 46, 49, 32, 45, 32, 45, 32, 49, 52, 53, 50, 56, 49, 57, 54, 52, 51, 32, 34, 71, 69, 84, 34] (built [.version 50, .hostname [104, 110], .appname [83], .timestamp [50, 48, 49, 54, 45, 48, 49, 45, 49, 53, 84, 48, 49, 58, 48, 48, 58, 52, 51, 90], .message [49, 50, 55, 46, 48, 46, 48, 46, 49, 32, 45, 32, 45, 32, 49, 52, 53, 50, 56, 49, 57, 54, 52, 51, 32, 34, 71, 69, 84, 34], .parameter [109, 101, 116, 97] [101, 115] [92, 92, 118, 97, 108, 105, 100], .priority 29]) = true := by decide +kernel
/-- rfc5424/machine_test.go:815 `<29>52 2016-01-15T01:00:43Z hn S - - [meta one="\\\\one" two="\\\\two"] 127.0.0.1 - - 1452819643 "GET"` -/
example : valid5424 false [60, 50, 57, 62, 53, 50, 32, 50, 48, 49, 54, 45, 48, 49, 45, 49, 53, 84, 48, 49, 58, 48, 48, 58, 52, 51, 90, 32, 104, 110, 32, 83, 32, 45, 32, 45, 32, 91, 109, 101, 116, 97, 32, 111, 110, 101, 61, 34, 92, 92, 111, 110, 101, 34, 32, 116, 119, 111, 61, 34, 92, 92, 116, 119, 111, 34, 93, 32, 49, 50, 55, 46, 48, 46, 48, 46, 49, 32, 45, 32, 45, 32, 49, 52, 53, 50, 56, 49, 57, 54, 52, 51, 32, 34, 71, 69, 84, 34] (built [.version 52, .hostname [104, 110], .appname [83], .timestamp [50, 48, 49, 54, 45, 48, 49, 45, 49, 53, 84, 48, 49, 58, 48, 48, 58, 52, 51, 90], .message [49, 50, 55, 46, 48, 46, 48, 46, 49, 32, 45, 32, 45, 32, 49, 52, 53, 50, 56, 49, 57, 54, 52, 51, 32, 34, 71, 69, 84, 34], .parameter [109, 101, 116, 97] [111, 110, 101] [92, 92, 111, 110, 101], .parameter [109, 101, 116, 97] [116, 119, 111] [92, 92, 116, 119, 111], .priority 29]) = true := by decide +kernel
/-- rfc5424/machine_test.go:830 `<29>53 2016-01-15T01:00:43Z hn S - - [meta one="\\\\one"][other two="\\\\two" double="\\\\a\\\\b"] 127.0.0.1 - - 1452819643 "GET"` -/
example : valid5424 false [60, 50, 57, 62, 53, 51, 32, 50, 48, 49, 54, 45, 48, 49, 45, 49, 53, 84, 48, 49, 58, 48, 48, 58, 52, 51, 90, 32, 104, 110, 32, 83, 32, 45, 32, 45, 32, 91, 109, 101, 116, 97, 32, 111, 110, 101, 61, 34, 92, 92, 111, 110, 101, 34, 93, 91, 111, 116, 104, 101, 114, 32, 116, 119, 111, 61, 34, 92, 92, 116, 119, 111, 34, 32, 100, 111, 117, 98, 108, 101, 61, 34, 92, 92, 97, 92, 92, 98, 34, 93, 32, 49, 50, 55, 46, 48, 46, 48, 46, 49, 32, 45, 32, 45, 32, 49, 52, 53, 50, 56, 49, 57, 54, 52, 51, 32, 34, 71, 69, 84, 34] (built [.version 53, .timestamp [50, 48, 49, 54, 45, 48, 49, 45, 49, 53, 84, 48, 49, 58, 48, 48, 58, 52, 51, 90], .hostname [104, 110], .appname [83], .message [49, 50, 55, 46, 48, 46, 48, 46, 49, 32, 45, 32, 45, 32, 49, 52, 53, 50, 56, 49, 57, 54, 52, 51, 32, 34, 71, 69, 84, 34], .parameter [109, 101, 116, 97] [111, 110, 101] [92, 92, 111, 110, 101], .parameter [111, 116, 104, 101, 114] [116, 119, 111] [92, 92, 116, 119, 111], .parameter [111, 116, 104, 101, 114] [100, 111, 117, 98, 108, 101] [92, 92, 97, 92, 92, 98], .priority 29]) = true := by decide +kernel
/-- rfc5424/machine_test.go:846 `<29>51 2016-01-15T01:00:43Z hn S - - [meta es="\\\\double\\\\slash"] 127.0.0.1 - - 1452819643 "GET"` -/
example : valid5424 false [60, 50, 57, 62, 53, 49, 32, 50, 48, 49, 54, 45, 48, 49, 45, 49, 53, 84, 48, 49, 58, 48, 48, 58, 52, 51, 90, 32, 104, 110, 32, 83, 32, 45, 32, 45, 32, 91, 109, 101, 116, 97, 32, 101, 115, 61, 34, 92, 92, 100, 111, 117, 98, 108, 101, 92, 92, 115, 108, 97, 115, 104, 34, 93, 32, 49, 50, 55, 46, 48, 46, 48, 46, 49, 32, 45, 32, 45, 32, 49, 52, 53, 50, 56, 49, 57, 54, 52, 51, 32, 34, 71, 69, 84, 34] (built [.version 51, .timestamp [50, 48, 49, 54, 45, 48, 49, 45, 49, 53, 84, 48, 49, 58, 48, 48, 58, 52, 51, 90], .hostname [104, 110], .appname [83], .message [49, 50, 55, 46, 48, 46, 48, 46, 49, 32, 45, 32, 45, 32, 49, 52, 53, 50, 56, 49, 57, 54, 52, 51, 32, 34, 71, 69, 84, 34], .parameter [109, 101, 116, 97] [101, 115] [92, 92, 100, 111, 117, 98, 108, 101, 92, 92, 115, 108, 97, 115, 104], .priority 29]) = true := by decide +kernel
/-- rfc5424/machine_test.go:860 `<29>54 2016-01-15T01:00:43Z hn S - - [meta es="in \\\\middle of the string"] 127.0.0.1 - - 1452819643 "GET"` -/
example : valid5424 false [60, 50, 57, 62, 53, 52, 32, 50, 48, 49, 54, 45, 48, 49, 45, 49, 53, 84, 48, 49, 58, 48, 48, 58, 52, 51, 90, 32, 104, 110, 32, 83, 32, 45, 32, 45, 32, 91, 109, 101, 116, 97, 32, 101, 115, 61, 34, 105, 110, 32, 92, 92, 109, 105, 100, 100, 108, 101, 32, 111, 102, 32, 116, 104, 101, 32, 115, 116, 114, 105, 110, 103, 34, 93, 32, 49, 50, 55, 46, 48, 46, 48, 46, 49, 32, 45, 32, 45, 32, 49, 52, 53, 50, 56, 49, 57, 54, 52, 51, 32, 34, 71, 69, 84, 34] (built [.version 54, .timestamp [50, 48, 49, 54, 45, 48, 49, 45, 49, 53, 84, 48, 49, 58, 48, 48, 58, 52, 51, 90], .hostname [104, 110], .appname [83], .message [49, 50, 55, 46, 48, 46, 48, 46, 49, 32, 45, 32, 45, 32, 49, 52, 53, 50, 56, 49, 57, 54, 52, 51, 32, 34, 71, 69, 84, 34], .parameter [109, 101, 116, 97] [101, 115] [105, 110, 32, 92, 92, 109, 105, 100, 100, 108, 101, 32, 111, 102, 32, 116, 104, 101, 32, 115, 116, 114, 105, 110, 103], .priority 29]) = true := by decide +kernel
/-- rfc5424/machine_test.go:874 `<29>55 2016-01-15T01:00:43Z hn S - - [meta es="at the \\\\end"] 127.0.0.1 - - 1452819643 "GET"` -/
example : valid5424 false [60, 50, 57, 62, 53, 53, 32, 50, 48, 49, 54, 45, 48, 49, 45, 49, 53, 84, 48, 49, 58, 48, 48, 58, 52, 51, 90, 32, 104, 110, 32, 83, 32, 45, 32, 45, 32, 91, 109, 101, 116, 97, 32, 101, 115, 61, 34, 97, 116, 32, 116, 104, 101, 32, 92, 92, 101, 110, 100, 34, 93, 32, 49, 50, 55, 46, 48, 46, 48, 46, 49, 32, 45, 32, 45, 32, 49, 52, 53, 50, 56, 49, 57, 54, 52, 51, 32, 34, 71, 69, 84, 34] (built [.version 55, .timestamp [50, 48, 49, 54, 45, 48, 49, 45, 49, 53, 84, 48, 49, 58, 48, 48, 58, 52, 51, 90], .hostname [104, 110], .appname [83], .message [49, 50, 55, 46, 48, 46, 48, 46, 49, 32, 45, 32, 45, 32, 49, 52, 53, 50, 56, 49, 57, 54, 52, 51, 32, 34, 71, 69, 84, 34], .parameter [109, 101, 116, 97] [101, 115] [97, 116, 32, 116, 104, 101, 32, 92, 92, 101, 110, 100], .priority 29]) = true := by decide +kernel
/-- rfc5424/machine_test.go:889 `<29>50 2016-01-15T01:00:43Z hn S - - [meta es="\t5\xe1\xbd\x8ag\xcc\x809!\xe2\x84\x83\xe1\xbe\xadGa b"] 127.0.0.1 - - 1452819643 "GET"` -/
example : valid5424 false [60, 50, 57, 62, 53, 48, 32, 50, 48, 49, 54, 45, 48, 49, 45, 49, 53, 84, 48, 49, 58, 48, 48, 58, 52, 51, 90, 32, 104, 110, 32, 83, 32, 45, 32, 45, 32, 91, 109, 101, 116, 97, 32, 101, 115, 61, 34, 9, 53, 225, 189, 138, 103, 204, 128, 57, 33, 226, 132, 131, 225, 190, 173, 71, 97, 32, 98, 34, 93, 32, 49, 50, 55, 46, 48, 46, 48, 46, 49, 32, 45, 32, 45, 32, 49, 52, 53, 50, 56, 49, 57, 54, 52, 51, 32, 34, 71, 69, 84, 34] (built [.version 50, .timestamp [50, 48, 49, 54, 45, 48, 49, 45, 49, 53, 84, 48, 49, 58, 48, 48, 58, 52, 51, 90], .hostname [104, 110], .appname [83], .message [49, 50, 55, 46, 48, 46, 48, 46, 49, 32, 45, 32, 45, 32, 49, 52, 53, 50, 56, 49, 57, 54, 52, 51, 32, 34, 71, 69, 84, 34], .parameter [109, 101, 116, 97] [101, 115] [9, 53, 225, 189, 138, 103, 204, 128, 57, 33, 226, 132, 131, 225, 190, 173, 71, 97, 32, 98], .priority 29]) = true := by decide +kernel
/-- rfc5424/machine_test.go:904 `<29>50 2016-01-15T01:00:43Z hn S - - [meta gr="\xce\xba\xe1\xbd\xb9\xcf\x83\xce\xbc\xce\xb5" es="\xc3\xb1"][beta pr="\xe2\x82\xa1"] \xf0\x90\x8c\xbc "GET"` -/
example : valid5424 false [60, 50, 57, 62, 53, 48, 32, 50, 48, 49, 54, 45, 48, 49, 45, 49, 53, 84, 48, 49, 58, 48, 48, 58, 52, 51, 90, 32, 104, 110, 32, 83, 32, 45, 32, 45, 32, 91, 109, 101, 116, 97, 32, 103, 114, 61, 34, 206, 186, 225, 189, 185, 207, 131, 206, 188, 206, 181, 34, 32, 101, 115, 61, 34, 195, 177, 34, 93, 91, 98, 101, 116, 97, 32, 112, 114, 61, 34, 226, 130, 161, 34, 93, 32, 240, 144, 140, 188, 32, 34, 71, 69, 84, 34] (built [.version 50, .timestamp [50, 48, 49, 54, 45, 48, 49, 45, 49, 53, 84, 48, 49, 58, 48, 48, 58, 52, 51, 90], .hostname [104, 110], .appname [83], .message [240, 144, 140, 188, 32, 34, 71, 69, 84, 34], .parameter [109, 101, 116, 97] [103, 114] [206, 186, 225, 189, 185, 207, 131, 206, 188, 206, 181], .parameter [109, 101, 116, 97] [101, 115] [195, 177], .parameter [98, 101, 116, 97] [112, 114] [226, 130, 161], .priority 29]) = true := by decide +kernel
/-- rfc5424/machine_test.go:921 `<165>3 2003-10-11T22:14:15.003Z example.com evnts - ID27 [exampleSDID@32473 iut="3" eventSource="Application" eventID="1011"][examplePriority@32473 class="high"]` -/
example : valid5424 false [60, 49, 54, 53, 62, 51, 32, 50, 48, 48, 51, 45, 49, 48, 45, 49, 49, 84, 50, 50, 58, 49, 52, 58, 49, 53, 46, 48, 48, 51, 90, 32, 101, 120, 97, 109, 112, 108, 101, 46, 99, 111, 109, 32, 101, 118, 110, 116, 115, 32, 45, 32, 73, 68, 50, 55, 32, 91, 101, 120, 97, 109, 112, 108, 101, 83, 68, 73, 68, 64, 51, 50, 52, 55, 51, 32, 105, 117, 116, 61, 34, 51, 34, 32, 101, 118, 101, 110, 116, 83, 111, 117, 114, 99, 101, 61, 34, 65, 112, 112, 108, 105, 99, 97, 116, 105, 111, 110, 34, 32, 101, 118, 101, 110, 116, 73, 68, 61, 34, 49, 48, 49, 49, 34, 93, 91, 101, 120, 97, 109, 112, 108, 101, 80, 114, 105, 111, 114, 105, 116, 121, 64, 51, 50, 52, 55, 51, 32, 99, 108, 97, 115, 115, 61, 34, 104, 105, 103, 104, 34, 93] (built [.version 3, .timestamp [50, 48, 48, 51, 45, 49, 48, 45, 49, 49, 84, 50, 50, 58, 49, 52, 58, 49, 53, 46, 48, 48, 51, 90], .hostname [101, 120, 97, 109, 112, 108, 101, 46, 99, 111, 109], .appname [101, 118, 110, 116, 115], .msgID [73, 68, 50, 55], .parameter [101, 120, 97, 109, 112, 108, 101, 83, 68, 73, 68, 64, 51, 50, 52, 55, 51] [105, 117, 116] [51], .parameter [101, 120, 97, 109, 112, 108, 101, 83, 68, 73, 68, 64, 51, 50, 52, 55, 51] [101, 118, 101, 110, 116, 83, 111, 117, 114, 99, 101] [65, 112, 112, 108, 105, 99, 97, 116, 105, 111, 110], .parameter [101, 120, 97, 109, 112, 108, 101, 83, 68, 73, 68, 64, 51, 50, 52, 55, 51] [101, 118, 101, 110, 116, 73, 68] [49, 48, 49, 49], .parameter [101, 120, 97, 109, 112, 108, 101, 80, 114, 105, 111, 114, 105, 116, 121, 64, 51, 50, 52, 55, 51] [99, 108, 97, 115, 115] [104, 105, 103, 104], .priority 165]) = true := by decide +kernel
/-- rfc5424/machine_test.go:939 `<165>3 2003-10-11T22:14:15.003Z example.com evnts - ID27 [id1][id1]` -/
example : invalid5424 false [60, 49, 54, 53, 62, 51, 32, 50, 48, 48, 51, 45, 49, 48, 45, 49, 49, 84, 50, 50, 58, 49, 52, 58, 49, 53, 46, 48, 48, 51, 90, 32, 101, 120, 97, 109, 112, 108, 101, 46, 99, 111, 109, 32, 101, 118, 110, 116, 115, 32, 45, 32, 73, 68, 50, 55, 32, 91, 105, 100, 49, 93, 91, 105, 100, 49, 93] ⟨.sdIdDup, 66⟩ (some (built [.version 3, .timestamp [50, 48, 48, 51, 45, 49, 48, 45, 49, 49, 84, 50, 50, 58, 49, 52, 58, 49, 53, 46, 48, 48, 51, 90], .hostname [101, 120, 97, 109, 112, 108, 101, 46, 99, 111, 109], .appname [101, 118, 110, 116, 115], .msgID [73, 68, 50, 55], .elementID [105, 100, 49], .priority 165])) = true := by decide +kernel
/-- rfc5424/machine_test.go:954 `<165>3 2003-10-12T22:14:15.003Z example.com evnts - ID27 [dupe e="1"][id1][dupe class="l"]` -/
example : invalid5424 false [60, 49, 54, 53, 62, 51, 32, 50, 48, 48, 51, 45, 49, 48, 45, 49, 50, 84, 50, 50, 58, 49, 52, 58, 49, 53, 46, 48, 48, 51, 90, 32, 101, 120, 97, 109, 112, 108, 101, 46, 99, 111, 109, 32, 101, 118, 110, 116, 115, 32, 45, 32, 73, 68, 50, 55, 32, 91, 100, 117, 112, 101, 32, 101, 61, 34, 49, 34, 93, 91, 105, 100, 49, 93, 91, 100, 117, 112, 101, 32, 99, 108, 97, 115, 115, 61, 34, 108, 34, 93] ⟨.sdIdDup, 79⟩ (some (built [.version 3, .timestamp [50, 48, 48, 51, 45, 49, 48, 45, 49, 50, 84, 50, 50, 58, 49, 52, 58, 49, 53, 46, 48, 48, 51, 90], .hostname [101, 120, 97, 109, 112, 108, 101, 46, 99, 111, 109], .appname [101, 118, 110, 116, 115], .msgID [73, 68, 50, 55], .elementID [105, 100, 49], .parameter [100, 117, 112, 101] [101] [49], .priority 165])) = true := by decide +kernel
/-- rfc5424/machine_test.go:970 `<165>4 2003-10-11T22:14:15.003Z mymachine.it e - 1 [ex@32473 iut="3" eventSource="A"] An application event log entry...` -/
example : valid5424 false [60, 49, 54, 53, 62, 52, 32, 50, 48, 48, 51, 45, 49, 48, 45, 49, 49, 84, 50, 50, 58, 49, 52, 58, 49, 53, 46, 48, 48, 51, 90, 32, 109, 121, 109, 97, 99, 104, 105, 110, 101, 46, 105, 116, 32, 101, 32, 45, 32, 49, 32, 91, 101, 120, 64, 51, 50, 52, 55, 51, 32, 105, 117, 116, 61, 34, 51, 34, 32, 101, 118, 101, 110, 116, 83, 111, 117, 114, 99, 101, 61, 34, 65, 34, 93, 32, 65, 110, 32, 97, 112, 112, 108, 105, 99, 97, 116, 105, 111, 110, 32, 101, 118, 101, 110, 116, 32, 108, 111, 103, 32, 101, 110, 116, 114, 121, 46, 46, 46] (built [.version 4, .message [65, 110, 32, 97, 112, 112, 108, 105, 99, 97, 116, 105, 111, 110, 32, 101, 118, 101, 110, 116, 32, 108, 111, 103, 32, 101, 110, 116, 114, 121, 46, 46, 46], .timestamp [50, 48, 48, 51, 45, 49, 48, 45, 49, 49, 84, 50, 50, 58, 49, 52, 58, 49, 53, 46, 48, 48, 51, 90], .hostname [109, 121, 109, 97, 99, 104, 105, 110, 101, 46, 105, 116], .appname [101], .msgID [49], .parameter [101, 120, 64, 51, 50, 52, 55, 51] [105, 117, 116] [51], .parameter [101, 120, 64, 51, 50, 52, 55, 51] [101, 118, 101, 110, 116, 83, 111, 117, 114, 99, 101] [65], .priority 165]) = true := by decide +kernel

end Verif.Conformance
