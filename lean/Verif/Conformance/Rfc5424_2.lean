import Verif.Conformance.Basic

/-!
# `TestMachineParse` (rfc5424/machine_test.go)

Written by `tools/conform.py`; do not edit. One `example` per test case of the repository, with the line of the case.
-/

namespace Verif.Conformance
open Verif.Builder (Call)

/-- rfc5424/machine_test.go:436 `<1>1 2003-09-29T22:14:16Z abcdefghilmnopqrstuvzabcdefghilmnopqrstuvzabcdefghilmnopqrstuvzabcdefghilmnopqrstuvzabcdefghilmnopqrstuvzabcdefghilmnopqrstuvzabcdefghilmnopqrstuvzabcdefghilmnopqrstuvzabcdefghilmnopqrstuvzabcdefghilmnopqrstuvzabcdefghilmnopqrstuvzabcdefghilmnopqrstuvzabcX - - - -` -/
example : invalid5424 false [60, 49, 62, 49, 32, 50, 48, 48, 51, 45, 48, 57, 45, 50, 57, 84, 50, 50, 58, 49, 52, 58, 49, 54, 90, 32, 97, 98, 99, 100, 101, 102, 103, 104, 105, 108, 109, 110, 111, 112, 113, 114, 115, 116, 117, 118, 122, 97, 98, 99, 100, 101, 102, 103, 104, 105, 108, 109, 110, 111, 112, 113, 114, 115, 116, 117, 118, 122, 97, 98, 99, 100, 101, 102, 103, 104, 105, 108, 109, 110, 111, 112, 113, 114, 115, 116, 117, 118, 122, 97, 98, 99, 100, 101, 102, 103, 104, 105, 108, 109, 110, 111, 112, 113, 114, 115, 116, 117, 118, 122, 97, 98, 99, 100, 101, 102, 103, 104, 105, 108, 109, 110, 111, 112, 113, 114, 115, 116, 117, 118, 122, 97, 98, 99, 100, 101, 102, 103, 104, 105, 108, 109, 110, 111, 112, 113, 114, 115, 116, 117, 118, 122, 97, 98, 99, 100, 101, 102, 103, 104, 105, 108, 109, 110, 111, 112, 113, 114, 115, 116, 117, 118, 122, 97, 98, 99, 100, 101, 102, 103, 104, 105, 108, 109, 110, 111, 112, 113, 114, 115, 116, 117, 118, 122, 97, 98, 99, 100, 101, 102, 103, 104, 105, 108, 109, 110, 111, 112, 113, 114, 115, 116, 117, 118, 122, 97, 98, 99, 100, 101, 102, 103, 104, 105, 108, 109, 110, 111, 112, 113, 114, 115, 116, 117, 118, 122, 97, 98, 99, 100, 101, 102, 103, 104, 105, 108, 109, 110, 111, 112, 113, 114, 115, 116, 117, 118, 122, 97, 98, 99, 100, 101, 102, 103, 104, 105, 108, 109, 110, 111, 112, 113, 114, 115, 116, 117, 118, 122, 97, 98, 99, 88, 32, 45, 32, 45, 32, 45, 32, 45] ⟨.hostname, 281⟩ (some (built [.version 1, .timestamp [50, 48, 48, 51, 45, 48, 57, 45, 50, 57, 84, 50, 50, 58, 49, 52, 58, 49, 54, 90], .priority 1])) = true := by decide +kernel
/-- rfc5424/machine_test.go:444 `<1>1 - - abcdefghilmnopqrstuvzabcdefghilmnopqrstuvzabcdefX - - -` -/
example : invalid5424 false [60, 49, 62, 49, 32, 45, 32, 45, 32, 97, 98, 99, 100, 101, 102, 103, 104, 105, 108, 109, 110, 111, 112, 113, 114, 115, 116, 117, 118, 122, 97, 98, 99, 100, 101, 102, 103, 104, 105, 108, 109, 110, 111, 112, 113, 114, 115, 116, 117, 118, 122, 97, 98, 99, 100, 101, 102, 88, 32, 45, 32, 45, 32, 45] ⟨.appname, 57⟩ (some (built [.version 1, .priority 1])) = true := by decide +kernel
/-- rfc5424/machine_test.go:451 `<1>1 2003-09-29T22:14:16Z - abcdefghilmnopqrstuvzabcdefghilmnopqrstuvzabcdefX - - -` -/
example : invalid5424 false [60, 49, 62, 49, 32, 50, 48, 48, 51, 45, 48, 57, 45, 50, 57, 84, 50, 50, 58, 49, 52, 58, 49, 54, 90, 32, 45, 32, 97, 98, 99, 100, 101, 102, 103, 104, 105, 108, 109, 110, 111, 112, 113, 114, 115, 116, 117, 118, 122, 97, 98, 99, 100, 101, 102, 103, 104, 105, 108, 109, 110, 111, 112, 113, 114, 115, 116, 117, 118, 122, 97, 98, 99, 100, 101, 102, 88, 32, 45, 32, 45, 32, 45] ⟨.appname, 76⟩ (some (built [.version 1, .timestamp [50, 48, 48, 51, 45, 48, 57, 45, 50, 57, 84, 50, 50, 58, 49, 52, 58, 49, 54, 90], .priority 1])) = true := by decide +kernel
/-- rfc5424/machine_test.go:458 `<1>1 - host abcdefghilmnopqrstuvzabcdefghilmnopqrstuvzabcdefX - - -` -/
example : invalid5424 false [60, 49, 62, 49, 32, 45, 32, 104, 111, 115, 116, 32, 97, 98, 99, 100, 101, 102, 103, 104, 105, 108, 109, 110, 111, 112, 113, 114, 115, 116, 117, 118, 122, 97, 98, 99, 100, 101, 102, 103, 104, 105, 108, 109, 110, 111, 112, 113, 114, 115, 116, 117, 118, 122, 97, 98, 99, 100, 101, 102, 88, 32, 45, 32, 45, 32, 45] ⟨.appname, 60⟩ (some (built [.version 1, .hostname [104, 111, 115, 116], .priority 1])) = true := by decide +kernel
/-- rfc5424/machine_test.go:465 `<1>1 2004-09-29T22:14:16Z host abcdefghilmnopqrstuvzabcdefghilmnopqrstuvzabcdefX - - -` -/
example : invalid5424 false [60, 49, 62, 49, 32, 50, 48, 48, 52, 45, 48, 57, 45, 50, 57, 84, 50, 50, 58, 49, 52, 58, 49, 54, 90, 32, 104, 111, 115, 116, 32, 97, 98, 99, 100, 101, 102, 103, 104, 105, 108, 109, 110, 111, 112, 113, 114, 115, 116, 117, 118, 122, 97, 98, 99, 100, 101, 102, 103, 104, 105, 108, 109, 110, 111, 112, 113, 114, 115, 116, 117, 118, 122, 97, 98, 99, 100, 101, 102, 88, 32, 45, 32, 45, 32, 45] ⟨.appname, 79⟩ (some (built [.version 1, .timestamp [50, 48, 48, 52, 45, 48, 57, 45, 50, 57, 84, 50, 50, 58, 49, 52, 58, 49, 54, 90], .hostname [104, 111, 115, 116], .priority 1])) = true := by decide +kernel
/-- rfc5424/machine_test.go:473 `<1>1 - - - abcdefghilmnopqrstuvzabcdefghilmnopqrstuvzabcdefghilmnopqrstuvzabcdefghilmnopqrstuvzabcdefghilmnopqrstuvzabcdefghilmnopqrstuvzabX - -` -/
example : invalid5424 false [60, 49, 62, 49, 32, 45, 32, 45, 32, 45, 32, 97, 98, 99, 100, 101, 102, 103, 104, 105, 108, 109, 110, 111, 112, 113, 114, 115, 116, 117, 118, 122, 97, 98, 99, 100, 101, 102, 103, 104, 105, 108, 109, 110, 111, 112, 113, 114, 115, 116, 117, 118, 122, 97, 98, 99, 100, 101, 102, 103, 104, 105, 108, 109, 110, 111, 112, 113, 114, 115, 116, 117, 118, 122, 97, 98, 99, 100, 101, 102, 103, 104, 105, 108, 109, 110, 111, 112, 113, 114, 115, 116, 117, 118, 122, 97, 98, 99, 100, 101, 102, 103, 104, 105, 108, 109, 110, 111, 112, 113, 114, 115, 116, 117, 118, 122, 97, 98, 99, 100, 101, 102, 103, 104, 105, 108, 109, 110, 111, 112, 113, 114, 115, 116, 117, 118, 122, 97, 98, 88, 32, 45, 32, 45] ⟨.procid, 139⟩ (some (built [.version 1, .priority 1])) = true := by decide +kernel
/-- rfc5424/machine_test.go:481 `<1>1 - - - - abcdefghilmnopqrstuvzabcdefghilmX -` -/
example : invalid5424 false [60, 49, 62, 49, 32, 45, 32, 45, 32, 45, 32, 45, 32, 97, 98, 99, 100, 101, 102, 103, 104, 105, 108, 109, 110, 111, 112, 113, 114, 115, 116, 117, 118, 122, 97, 98, 99, 100, 101, 102, 103, 104, 105, 108, 109, 88, 32, 45] ⟨.msgid, 45⟩ (some (built [.version 1, .priority 1])) = true := by decide +kernel
/-- rfc5424/machine_test.go:489 `<1>1 -   - - - -` -/
example : invalid5424 false [60, 49, 62, 49, 32, 45, 32, 32, 32, 45, 32, 45, 32, 45, 32, 45] ⟨.hostname, 7⟩ (some (built [.version 1, .priority 1])) = true := by decide +kernel
/-- rfc5424/machine_test.go:496 `<1>1 - -   - - -` -/
example : invalid5424 false [60, 49, 62, 49, 32, 45, 32, 45, 32, 32, 32, 45, 32, 45, 32, 45] ⟨.appname, 9⟩ (some (built [.version 1, .priority 1])) = true := by decide +kernel
/-- rfc5424/machine_test.go:503 `<1>1 - - -   - -` -/
example : invalid5424 false [60, 49, 62, 49, 32, 45, 32, 45, 32, 45, 32, 32, 32, 45, 32, 45] ⟨.procid, 11⟩ (some (built [.version 1, .priority 1])) = true := by decide +kernel
/-- rfc5424/machine_test.go:510 `<1>1 - - - -   -` -/
example : invalid5424 false [60, 49, 62, 49, 32, 45, 32, 45, 32, 45, 32, 45, 32, 32, 32, 45] ⟨.msgid, 13⟩ (some (built [.version 1, .priority 1])) = true := by decide +kernel
/-- rfc5424/machine_test.go:518 `<1>1 - - - - - X` -/
example : invalid5424 false [60, 49, 62, 49, 32, 45, 32, 45, 32, 45, 32, 45, 32, 45, 32, 88] ⟨.structuredData, 15⟩ (some (built [.version 1, .priority 1])) = true := by decide +kernel
/-- rfc5424/machine_test.go:526 `<1>1 - - - - - []` -/
example : invalid5424 false [60, 49, 62, 49, 32, 45, 32, 45, 32, 45, 32, 45, 32, 45, 32, 91, 93] ⟨.sdId, 16⟩ (some (built [.version 1, .priority 1])) = true := by decide +kernel
/-- rfc5424/machine_test.go:534 `<1>1 - - - - - [ ]` -/
example : invalid5424 false [60, 49, 62, 49, 32, 45, 32, 45, 32, 45, 32, 45, 32, 45, 32, 91, 32, 93] ⟨.sdId, 16⟩ (some (built [.version 1, .priority 1])) = true := by decide +kernel
/-- rfc5424/machine_test.go:542 `<1>1 - - - - - [=]` -/
example : invalid5424 false [60, 49, 62, 49, 32, 45, 32, 45, 32, 45, 32, 45, 32, 45, 32, 91, 61, 93] ⟨.sdId, 16⟩ (some (built [.version 1, .priority 1])) = true := by decide +kernel
/-- rfc5424/machine_test.go:550 `<1>1 - - - - - []]` -/
example : invalid5424 false [60, 49, 62, 49, 32, 45, 32, 45, 32, 45, 32, 45, 32, 45, 32, 91, 93, 93] ⟨.sdId, 16⟩ (some (built [.version 1, .priority 1])) = true := by decide +kernel
/-- rfc5424/machine_test.go:558 `<6>1 - - - - - ["]` -/
example : invalid5424 false [60, 54, 62, 49, 32, 45, 32, 45, 32, 45, 32, 45, 32, 45, 32, 91, 34, 93] ⟨.sdId, 16⟩ (some (built [.version 1, .priority 6])) = true := by decide +kernel
/-- rfc5424/machine_test.go:566 `<1>1 - - - - - [abcdefghilmnopqrstuvzabcdefghilmX]` -/
example : invalid5424 false [60, 49, 62, 49, 32, 45, 32, 45, 32, 45, 32, 45, 32, 45, 32, 91, 97, 98, 99, 100, 101, 102, 103, 104, 105, 108, 109, 110, 111, 112, 113, 114, 115, 116, 117, 118, 122, 97, 98, 99, 100, 101, 102, 103, 104, 105, 108, 109, 88, 93] ⟨.sdId, 48⟩ (some (built [.version 1, .priority 1])) = true := by decide +kernel
/-- rfc5424/machine_test.go:574 `<1>1 - - - - - [id abcdefghilmnopqrstuvzabcdefghilmX="val"]` -/
example : invalid5424 false [60, 49, 62, 49, 32, 45, 32, 45, 32, 45, 32, 45, 32, 45, 32, 91, 105, 100, 32, 97, 98, 99, 100, 101, 102, 103, 104, 105, 108, 109, 110, 111, 112, 113, 114, 115, 116, 117, 118, 122, 97, 98, 99, 100, 101, 102, 103, 104, 105, 108, 109, 88, 61, 34, 118, 97, 108, 34, 93] ⟨.sdParam, 51⟩ (some (built [.version 1, .elementID [105, 100], .priority 1])) = true := by decide +kernel
/-- rfc5424/machine_test.go:582 `<10>1 - - - - - -` -/
example : valid5424 false [60, 49, 48, 62, 49, 32, 45, 32, 45, 32, 45, 32, 45, 32, 45, 32, 45] (built [.version 1, .priority 10]) = true := by decide +kernel
/-- rfc5424/machine_test.go:589 `<0>1 - - - - - -` -/
example : valid5424 false [60, 48, 62, 49, 32, 45, 32, 45, 32, 45, 32, 45, 32, 45, 32, 45] (built [.version 1, .priority 0]) = true := by decide +kernel
/-- rfc5424/machine_test.go:597 `<29>1 2016-02-21T04:32:57+00:00 web1 someservice - - [origin x-service="someservice"][meta sequenceId="14125553"] 127.0.0.1 - - 1456029177 "GET /v1/ok HTTP/1.1" 200 145 "-" "hacheck 0.9.0" 24306 127.0.0.1:40124 575` -/
example : valid5424 false [60, 50, 57, 62, 49, 32, 50, 48, 49, 54, 45, 48, 50, 45, 50, 49, 84, 48, 52, 58, 51, 50, 58, 53, 55, 43, 48, 48, 58, 48, 48, 32, 119, 101, 98, 49, 32, 115, 111, 109, 101, 115, 101, 114, 118, 105, 99, 101, 32, 45, 32, 45, 32, 91, 111, 114, 105, 103, 105, 110, 32, 120, 45, 115, 101, 114, 118, 105, 99, 101, 61, 34, 115, 111, 109, 101, 115, 101, 114, 118, 105, 99, 101, 34, 93, 91, 109, 101, 116, 97, 32, 115, 101, 113, 117, 101, 110, 99, 101, 73, 100, 61, 34, 49, 52, 49, 50, 53, 53, 53, 51, 34, 93, 32, 49, 50, 55, 46, 48, 46, 48, 46, 49, 32, 45, 32, 45, 32, 49, 52, 53, 54, 48, 50, 57, 49, 55, 55, 32, 34, 71, 69, 84, 32, 47, 118, 49, 47, 111, 107, 32, 72, 84, 84, 80, 47, 49, 46, 49, 34, 32, 50, 48, 48, 32, 49, 52, 53, 32, 34, 45, 34, 32, 34, 104, 97, 99, 104, 101, 99, 107, 32, 48, 46, 57, 46, 48, 34, 32, 50, 52, 51, 48, 54, 32, 49, 50, 55, 46, 48, 46, 48, 46, 49, 58, 52, 48, 49, 50, 52, 32, 53, 55, 53] (built [.version 1, .hostname [119, 101, 98, 49], .appname [115, 111, 109, 101, 115, 101, 114, 118, 105, 99, 101], .timestamp [50, 48, 49, 54, 45, 48, 50, 45, 50, 49, 84, 48, 52, 58, 51, 50, 58, 53, 55, 43, 48, 48, 58, 48, 48], .parameter [111, 114, 105, 103, 105, 110] [120, 45, 115, 101, 114, 118, 105, 99, 101] [115, 111, 109, 101, 115, 101, 114, 118, 105, 99, 101], .parameter [109, 101, 116, 97] [115, 101, 113, 117, 101, 110, 99, 101, 73, 100] [49, 52, 49, 50, 53, 53, 53, 51], .message [49, 50, 55, 46, 48, 46, 48, 46, 49, 32, 45, 32, 45, 32, 49, 52, 53, 54, 48, 50, 57, 49, 55, 55, 32, 34, 71, 69, 84, 32, 47, 118, 49, 47, 111, 107, 32, 72, 84, 84, 80, 47, 49, 46, 49, 34, 32, 50, 48, 48, 32, 49, 52, 53, 32, 34, 45, 34, 32, 34, 104, 97, 99, 104, 101, 99, 107, 32, 48, 46, 57, 46, 48, 34, 32, 50, 52, 51, 48, 54, 32, 49, 50, 55, 46, 48, 46, 48, 46, 49, 58, 52, 48, 49, 50, 52, 32, 53, 55, 53], .priority 29]) = true := by decide +kernel
/-- rfc5424/machine_test.go:613 `<1>100 - host-name - - - -` -/
example : valid5424 false [60, 49, 62, 49, 48, 48, 32, 45, 32, 104, 111, 115, 116, 45, 110, 97, 109, 101, 32, 45, 32, 45, 32, 45, 32, 45] (built [.version 100, .hostname [104, 111, 115, 116, 45, 110, 97, 109, 101], .priority 1]) = true := by decide +kernel
/-- rfc5424/machine_test.go:620 `<1>101 - host-name app-name - - -` -/
example : valid5424 false [60, 49, 62, 49, 48, 49, 32, 45, 32, 104, 111, 115, 116, 45, 110, 97, 109, 101, 32, 97, 112, 112, 45, 110, 97, 109, 101, 32, 45, 32, 45, 32, 45] (built [.version 101, .hostname [104, 111, 115, 116, 45, 110, 97, 109, 101], .appname [97, 112, 112, 45, 110, 97, 109, 101], .priority 1]) = true := by decide +kernel
/-- rfc5424/machine_test.go:627 `<1>102 - host-name app-name proc-id - -` -/
example : valid5424 false [60, 49, 62, 49, 48, 50, 32, 45, 32, 104, 111, 115, 116, 45, 110, 97, 109, 101, 32, 97, 112, 112, 45, 110, 97, 109, 101, 32, 112, 114, 111, 99, 45, 105, 100, 32, 45, 32, 45] (built [.version 102, .hostname [104, 111, 115, 116, 45, 110, 97, 109, 101], .appname [97, 112, 112, 45, 110, 97, 109, 101], .procID [112, 114, 111, 99, 45, 105, 100], .priority 1]) = true := by decide +kernel
/-- rfc5424/machine_test.go:639 `<1>103 - host-name app-name proc-id msg-id -` -/
example : valid5424 false [60, 49, 62, 49, 48, 51, 32, 45, 32, 104, 111, 115, 116, 45, 110, 97, 109, 101, 32, 97, 112, 112, 45, 110, 97, 109, 101, 32, 112, 114, 111, 99, 45, 105, 100, 32, 109, 115, 103, 45, 105, 100, 32, 45] (built [.version 103, .hostname [104, 111, 115, 116, 45, 110, 97, 109, 101], .appname [97, 112, 112, 45, 110, 97, 109, 101], .procID [112, 114, 111, 99, 45, 105, 100], .msgID [109, 115, 103, 45, 105, 100], .priority 1]) = true := by decide +kernel

end Verif.Conformance
