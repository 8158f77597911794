import Verif.Conformance.Basic

/-!
# `TestMachineParseWithCompliantMsgOn`, `TestMachineParseWithCompliantMsgOff` (rfc5424/machine_test.go)

Written by `tools/conform.py`; do not edit. One `example` per test case of the repository, with the line of the case.
-/

namespace Verif.Conformance
open Verif.Builder (Call)

/-- rfc5424/machine_test.go:27 `` -/
example : invalid5424 true ([] : Bytes) ⟨.pri, 0⟩ none = true := by decide +kernel
/-- rfc5424/machine_test.go:35 `<1>1 - - - - - -\n\t\t<2>1 - - - - - -` -/
example : invalid5424 true [60, 49, 62, 49, 32, 45, 32, 45, 32, 45, 32, 45, 32, 45, 32, 45, 10, 9, 9, 60, 50, 62, 49, 32, 45, 32, 45, 32, 45, 32, 45, 32, 45, 32, 45] ⟨.parse, 16⟩ (some (built [.version 1, .priority 1])) = true := by decide +kernel
/-- rfc5424/machine_test.go:44 `<1>1 - \nhostname - - - -` -/
example : invalid5424 true [60, 49, 62, 49, 32, 45, 32, 10, 104, 111, 115, 116, 110, 97, 109, 101, 32, 45, 32, 45, 32, 45, 32, 45] ⟨.hostname, 7⟩ (some (built [.version 1, .priority 1])) = true := by decide +kernel
/-- rfc5424/machine_test.go:51 `<1>1 - host\nname - - - -` -/
example : invalid5424 true [60, 49, 62, 49, 32, 45, 32, 104, 111, 115, 116, 10, 110, 97, 109, 101, 32, 45, 32, 45, 32, 45, 32, 45] ⟨.hostname, 11⟩ (some (built [.version 1, .priority 1])) = true := by decide +kernel
/-- rfc5424/machine_test.go:58 `<1>1 - - \nan - - -` -/
example : invalid5424 true [60, 49, 62, 49, 32, 45, 32, 45, 32, 10, 97, 110, 32, 45, 32, 45, 32, 45] ⟨.appname, 9⟩ (some (built [.version 1, .priority 1])) = true := by decide +kernel
/-- rfc5424/machine_test.go:65 `<1>1 - - a\nn - - -` -/
example : invalid5424 true [60, 49, 62, 49, 32, 45, 32, 45, 32, 97, 10, 110, 32, 45, 32, 45, 32, 45] ⟨.appname, 10⟩ (some (built [.version 1, .priority 1])) = true := by decide +kernel
/-- rfc5424/machine_test.go:72 `<1>1 - - - \npid - -` -/
example : invalid5424 true [60, 49, 62, 49, 32, 45, 32, 45, 32, 45, 32, 10, 112, 105, 100, 32, 45, 32, 45] ⟨.procid, 11⟩ (some (built [.version 1, .priority 1])) = true := by decide +kernel
/-- rfc5424/machine_test.go:79 `<1>1 - - - p\nid - -` -/
example : invalid5424 true [60, 49, 62, 49, 32, 45, 32, 45, 32, 45, 32, 112, 10, 105, 100, 32, 45, 32, 45] ⟨.procid, 12⟩ (some (built [.version 1, .priority 1])) = true := by decide +kernel
/-- rfc5424/machine_test.go:86 `<1>1 - - - - \nmid -` -/
example : invalid5424 true [60, 49, 62, 49, 32, 45, 32, 45, 32, 45, 32, 45, 32, 10, 109, 105, 100, 32, 45] ⟨.msgid, 13⟩ (some (built [.version 1, .priority 1])) = true := by decide +kernel
/-- rfc5424/machine_test.go:93 `<1>1 - - - - m\nid -` -/
example : invalid5424 true [60, 49, 62, 49, 32, 45, 32, 45, 32, 45, 32, 45, 32, 109, 10, 105, 100, 32, 45] ⟨.msgid, 14⟩ (some (built [.version 1, .priority 1])) = true := by decide +kernel
/-- rfc5424/machine_test.go:101 `(190>122 2018-11-22` -/
example : invalid5424 true [40, 49, 57, 48, 62, 49, 50, 50, 32, 50, 48, 49, 56, 45, 49, 49, 45, 50, 50] ⟨.pri, 0⟩ none = true := by decide +kernel
/-- rfc5424/machine_test.go:109 `<87]123 -` -/
example : invalid5424 true [60, 56, 55, 93, 49, 50, 51, 32, 45] ⟨.prival, 3⟩ none = true := by decide +kernel
/-- rfc5424/machine_test.go:118 `122 - - - - - -` -/
example : invalid5424 true [49, 50, 50, 32, 45, 32, 45, 32, 45, 32, 45, 32, 45, 32, 45] ⟨.pri, 0⟩ none = true := by decide +kernel
/-- rfc5424/machine_test.go:126 `<>122 2018-11-22` -/
example : invalid5424 true [60, 62, 49, 50, 50, 32, 50, 48, 49, 56, 45, 49, 49, 45, 50, 50] ⟨.prival, 1⟩ none = true := by decide +kernel
/-- rfc5424/machine_test.go:134 `<19000021>122 2018-11-22` -/
example : invalid5424 true [60, 49, 57, 48, 48, 48, 48, 50, 49, 62, 49, 50, 50, 32, 50, 48, 49, 56, 45, 49, 49, 45, 50, 50] ⟨.prival, 4⟩ none = true := by decide +kernel
/-- rfc5424/machine_test.go:142 `<192>122 2018-11-22` -/
example : invalid5424 true [60, 49, 57, 50, 62, 49, 50, 50, 32, 50, 48, 49, 56, 45, 49, 49, 45, 50, 50] ⟨.prival, 3⟩ none = true := by decide +kernel
/-- rfc5424/machine_test.go:150 `<002>122 2018-11-22` -/
example : invalid5424 true [60, 48, 48, 50, 62, 49, 50, 50, 32, 50, 48, 49, 56, 45, 49, 49, 45, 50, 50] ⟨.prival, 2⟩ none = true := by decide +kernel
/-- rfc5424/machine_test.go:158 `<aaa>122 2018-11-22` -/
example : invalid5424 true [60, 97, 97, 97, 62, 49, 50, 50, 32, 50, 48, 49, 56, 45, 49, 49, 45, 50, 50] ⟨.prival, 1⟩ none = true := by decide +kernel
/-- rfc5424/machine_test.go:166 `<100> 2018-11-22` -/
example : invalid5424 true [60, 49, 48, 48, 62, 32, 50, 48, 49, 56, 45, 49, 49, 45, 50, 50] ⟨.version, 5⟩ none = true := by decide +kernel
/-- rfc5424/machine_test.go:174 `<103>0 2018-11-22` -/
example : invalid5424 true [60, 49, 48, 51, 62, 48, 32, 50, 48, 49, 56, 45, 49, 49, 45, 50, 50] ⟨.version, 5⟩ none = true := by decide +kernel
/-- rfc5424/machine_test.go:182 `<101>1000 2018-11-22` -/
example : invalid5424 true [60, 49, 48, 49, 62, 49, 48, 48, 48, 32, 50, 48, 49, 56, 45, 49, 49, 45, 50, 50] ⟨.version, 8⟩ (some (built [.version 100, .priority 101])) = true := by decide +kernel
/-- rfc5424/machine_test.go:190 `<1>2 ` -/
example : invalid5424 true [60, 49, 62, 50, 32] ⟨.timestamp, 5⟩ (some (built [.version 2, .priority 1])) = true := by decide +kernel
/-- rfc5424/machine_test.go:198 `<1>1` -/
example : invalid5424 true [60, 49, 62, 49] ⟨.parse, 4⟩ (some (built [.version 1, .priority 1])) = true := by decide +kernel
/-- rfc5424/machine_test.go:214 `<1>3a` -/
example : invalid5424 true [60, 49, 62, 51, 97] ⟨.parse, 4⟩ (some (built [.version 3, .priority 1])) = true := by decide +kernel
/-- rfc5424/machine_test.go:221 `<1>4a ` -/
example : invalid5424 true [60, 49, 62, 52, 97, 32] ⟨.parse, 4⟩ (some (built [.version 4, .priority 1])) = true := by decide +kernel
/-- rfc5424/machine_test.go:228 `<102>abc 2018-11-22` -/
example : invalid5424 true [60, 49, 48, 50, 62, 97, 98, 99, 32, 50, 48, 49, 56, 45, 49, 49, 45, 50, 50] ⟨.version, 5⟩ none = true := by decide +kernel
/-- rfc5424/machine_test.go:236 `<1>5 A` -/
example : invalid5424 true [60, 49, 62, 53, 32, 65] ⟨.timestamp, 5⟩ (some (built [.version 5, .priority 1])) = true := by decide +kernel
/-- rfc5424/machine_test.go:244 `<29>1 2006-01-02t15:04:05Z - - - - -` -/
example : invalid5424 true [60, 50, 57, 62, 49, 32, 50, 48, 48, 54, 45, 48, 49, 45, 48, 50, 116, 49, 53, 58, 48, 52, 58, 48, 53, 90, 32, 45, 32, 45, 32, 45, 32, 45, 32, 45] ⟨.timestamp, 16⟩ (some (built [.version 1, .priority 29])) = true := by decide +kernel
/-- rfc5424/machine_test.go:251 `<29>2 2006-01-02T15:04:05z - - - - -` -/
example : invalid5424 true [60, 50, 57, 62, 50, 32, 50, 48, 48, 54, 45, 48, 49, 45, 48, 50, 84, 49, 53, 58, 48, 52, 58, 48, 53, 122, 32, 45, 32, 45, 32, 45, 32, 45, 32, 45] ⟨.timestamp, 25⟩ (some (built [.version 2, .priority 29])) = true := by decide +kernel
/-- rfc5424/machine_test.go:259 `<101>123 2` -/
example : invalid5424 true [60, 49, 48, 49, 62, 49, 50, 51, 32, 50] ⟨.timestamp, 10⟩ (some (built [.version 123, .priority 101])) = true := by decide +kernel
/-- rfc5424/machine_test.go:266 `<101>124 20` -/
example : invalid5424 true [60, 49, 48, 49, 62, 49, 50, 52, 32, 50, 48] ⟨.timestamp, 11⟩ (some (built [.version 124, .priority 101])) = true := by decide +kernel
/-- rfc5424/machine_test.go:273 `<101>125 201` -/
example : invalid5424 true [60, 49, 48, 49, 62, 49, 50, 53, 32, 50, 48, 49] ⟨.timestamp, 12⟩ (some (built [.version 125, .priority 101])) = true := by decide +kernel
/-- rfc5424/machine_test.go:280 `<101>125 2013` -/
example : invalid5424 true [60, 49, 48, 49, 62, 49, 50, 53, 32, 50, 48, 49, 51] ⟨.timestamp, 13⟩ (some (built [.version 125, .priority 101])) = true := by decide +kernel
/-- rfc5424/machine_test.go:287 `<101>126 2013-` -/
example : invalid5424 true [60, 49, 48, 49, 62, 49, 50, 54, 32, 50, 48, 49, 51, 45] ⟨.timestamp, 14⟩ (some (built [.version 126, .priority 101])) = true := by decide +kernel
/-- rfc5424/machine_test.go:294 `<101>122 201-11-22` -/
example : invalid5424 true [60, 49, 48, 49, 62, 49, 50, 50, 32, 50, 48, 49, 45, 49, 49, 45, 50, 50] ⟨.timestamp, 12⟩ (some (built [.version 122, .priority 101])) = true := by decide +kernel
/-- rfc5424/machine_test.go:301 `<101>189 0-11-22` -/
example : invalid5424 true [60, 49, 48, 49, 62, 49, 56, 57, 32, 48, 45, 49, 49, 45, 50, 50] ⟨.timestamp, 10⟩ (some (built [.version 189, .priority 101])) = true := by decide +kernel
/-- rfc5424/machine_test.go:309 `<101>121 2018-112-22` -/
example : invalid5424 true [60, 49, 48, 49, 62, 49, 50, 49, 32, 50, 48, 49, 56, 45, 49, 49, 50, 45, 50, 50] ⟨.timestamp, 16⟩ (some (built [.version 121, .priority 101])) = true := by decide +kernel
/-- rfc5424/machine_test.go:317 `<101>123 2018-02-32` -/
example : invalid5424 true [60, 49, 48, 49, 62, 49, 50, 51, 32, 50, 48, 49, 56, 45, 48, 50, 45, 51, 50] ⟨.timestamp, 18⟩ (some (built [.version 123, .priority 101])) = true := by decide +kernel
/-- rfc5424/machine_test.go:325 `<101>124 2018-02-01:25:15Z` -/
example : invalid5424 true [60, 49, 48, 49, 62, 49, 50, 52, 32, 50, 48, 49, 56, 45, 48, 50, 45, 48, 49, 58, 50, 53, 58, 49, 53, 90] ⟨.timestamp, 19⟩ (some (built [.version 124, .priority 101])) = true := by decide +kernel
/-- rfc5424/machine_test.go:333 `<101>125 2003-09-29T22:99:16Z` -/
example : invalid5424 true [60, 49, 48, 49, 62, 49, 50, 53, 32, 50, 48, 48, 51, 45, 48, 57, 45, 50, 57, 84, 50, 50, 58, 57, 57, 58, 49, 54, 90] ⟨.timestamp, 23⟩ (some (built [.version 125, .priority 101])) = true := by decide +kernel
/-- rfc5424/machine_test.go:341 `<101>126 2003-09-29T22:09:99Z` -/
example : invalid5424 true [60, 49, 48, 49, 62, 49, 50, 54, 32, 50, 48, 48, 51, 45, 48, 57, 45, 50, 57, 84, 50, 50, 58, 48, 57, 58, 57, 57, 90] ⟨.timestamp, 26⟩ (some (built [.version 126, .priority 101])) = true := by decide +kernel
/-- rfc5424/machine_test.go:349 `<101>127 2003-09-29T22:09:01.000000000009Z` -/
example : invalid5424 true [60, 49, 48, 49, 62, 49, 50, 55, 32, 50, 48, 48, 51, 45, 48, 57, 45, 50, 57, 84, 50, 50, 58, 48, 57, 58, 48, 49, 46, 48, 48, 48, 48, 48, 48, 48, 48, 48, 48, 48, 57, 90] ⟨.timestamp, 35⟩ (some (built [.version 127, .priority 101])) = true := by decide +kernel
/-- rfc5424/machine_test.go:356 `<101>128 2003-09-29T22:09:01.Z` -/
example : invalid5424 true [60, 49, 48, 49, 62, 49, 50, 56, 32, 50, 48, 48, 51, 45, 48, 57, 45, 50, 57, 84, 50, 50, 58, 48, 57, 58, 48, 49, 46, 90] ⟨.timestamp, 29⟩ (some (built [.version 128, .priority 101])) = true := by decide +kernel
/-- rfc5424/machine_test.go:363 `<101>28 2003-09-29T22:09:01.` -/
example : invalid5424 true [60, 49, 48, 49, 62, 50, 56, 32, 50, 48, 48, 51, 45, 48, 57, 45, 50, 57, 84, 50, 50, 58, 48, 57, 58, 48, 49, 46] ⟨.timestamp, 28⟩ (some (built [.version 28, .priority 101])) = true := by decide +kernel
/-- rfc5424/machine_test.go:371 `<101>129 2003-09-29T22:09:01A` -/
example : invalid5424 true [60, 49, 48, 49, 62, 49, 50, 57, 32, 50, 48, 48, 51, 45, 48, 57, 45, 50, 57, 84, 50, 50, 58, 48, 57, 58, 48, 49, 65] ⟨.timestamp, 28⟩ (some (built [.version 129, .priority 101])) = true := by decide +kernel
/-- rfc5424/machine_test.go:378 `<101>130 2003-08-24T05:14:15.000003-24:00` -/
example : invalid5424 true [60, 49, 48, 49, 62, 49, 51, 48, 32, 50, 48, 48, 51, 45, 48, 56, 45, 50, 52, 84, 48, 53, 58, 49, 52, 58, 49, 53, 46, 48, 48, 48, 48, 48, 51, 45, 50, 52, 58, 48, 48] ⟨.timestamp, 37⟩ (some (built [.version 130, .priority 101])) = true := by decide +kernel
/-- rfc5424/machine_test.go:385 `<101>131 2003-08-24T05:14:15.000003-60:00` -/
example : invalid5424 true [60, 49, 48, 49, 62, 49, 51, 49, 32, 50, 48, 48, 51, 45, 48, 56, 45, 50, 52, 84, 48, 53, 58, 49, 52, 58, 49, 53, 46, 48, 48, 48, 48, 48, 51, 45, 54, 48, 58, 48, 48] ⟨.timestamp, 36⟩ (some (built [.version 131, .priority 101])) = true := by decide +kernel
/-- rfc5424/machine_test.go:392 `<101>132 2003-08-24T05:14:15.000003-07:61` -/
example : invalid5424 true [60, 49, 48, 49, 62, 49, 51, 50, 32, 50, 48, 48, 51, 45, 48, 56, 45, 50, 52, 84, 48, 53, 58, 49, 52, 58, 49, 53, 46, 48, 48, 48, 48, 48, 51, 45, 48, 55, 58, 54, 49] ⟨.timestamp, 39⟩ (some (built [.version 132, .priority 101])) = true := by decide +kernel
/-- rfc5424/machine_test.go:399 `<29>1 2006-01-02T15:04:05Z+07:00 - - - - -` -/
example : invalid5424 true [60, 50, 57, 62, 49, 32, 50, 48, 48, 54, 45, 48, 49, 45, 48, 50, 84, 49, 53, 58, 48, 52, 58, 48, 53, 90, 43, 48, 55, 58, 48, 48, 32, 45, 32, 45, 32, 45, 32, 45, 32, 45] ⟨.parse, 26⟩ (some (built [.version 1, .timestamp [50, 48, 48, 54, 45, 48, 49, 45, 48, 50, 84, 49, 53, 58, 48, 52, 58, 48, 53, 90], .priority 29])) = true := by decide +kernel
/-- rfc5424/machine_test.go:407 `<101>11 2003-09-31T22:14:15.003Z` -/
example : invalid5424Text true [60, 49, 48, 49, 62, 49, 49, 32, 50, 48, 48, 51, 45, 48, 57, 45, 51, 49, 84, 50, 50, 58, 49, 52, 58, 49, 53, 46, 48, 48, 51, 90] [112, 97, 114, 115, 105, 110, 103, 32, 116, 105, 109, 101, 32, 34, 50, 48, 48, 51, 45, 48, 57, 45, 51, 49, 84, 50, 50, 58, 49, 52, 58, 49, 53, 46, 48, 48, 51, 90, 34, 58, 32, 100, 97, 121, 32, 111, 117, 116, 32, 111, 102, 32, 114, 97, 110, 103, 101, 32, 91, 99, 111, 108, 32, 51, 50, 93] (some (built [.version 11, .priority 101])) = true := by decide +kernel
/-- rfc5424/machine_test.go:414 `<101>12 2003-09-31T22:14:16Z` -/
example : invalid5424Text true [60, 49, 48, 49, 62, 49, 50, 32, 50, 48, 48, 51, 45, 48, 57, 45, 51, 49, 84, 50, 50, 58, 49, 52, 58, 49, 54, 90] [112, 97, 114, 115, 105, 110, 103, 32, 116, 105, 109, 101, 32, 34, 50, 48, 48, 51, 45, 48, 57, 45, 51, 49, 84, 50, 50, 58, 49, 52, 58, 49, 54, 90, 34, 58, 32, 100, 97, 121, 32, 111, 117, 116, 32, 111, 102, 32, 114, 97, 110, 103, 101, 32, 91, 99, 111, 108, 32, 50, 56, 93] (some (built [.version 12, .priority 101])) = true := by decide +kernel
/-- rfc5424/machine_test.go:421 `<101>12 2018-02-29T22:14:16+01:00` -/
example : invalid5424Text true [60, 49, 48, 49, 62, 49, 50, 32, 50, 48, 49, 56, 45, 48, 50, 45, 50, 57, 84, 50, 50, 58, 49, 52, 58, 49, 54, 43, 48, 49, 58, 48, 48] [112, 97, 114, 115, 105, 110, 103, 32, 116, 105, 109, 101, 32, 34, 50, 48, 49, 56, 45, 48, 50, 45, 50, 57, 84, 50, 50, 58, 49, 52, 58, 49, 54, 43, 48, 49, 58, 48, 48, 34, 58, 32, 100, 97, 121, 32, 111, 117, 116, 32, 111, 102, 32, 114, 97, 110, 103, 101, 32, 91, 99, 111, 108, 32, 51, 51, 93] (some (built [.version 12, .priority 101])) = true := by decide +kernel
/-- rfc5424/machine_test.go:429 `<1>1 - abcdefghilmnopqrstuvzabcdefghilmnopqrstuvzabcdefghilmnopqrstuvzabcdefghilmnopqrstuvzabcdefghilmnopqrstuvzabcdefghilmnopqrstuvzabcdefghilmnopqrstuvzabcdefghilmnopqrstuvzabcdefghilmnopqrstuvzabcdefghilmnopqrstuvzabcdefghilmnopqrstuvzabcdefghilmnopqrstuvzabcX - - - -` -/
example : invalid5424 true [60, 49, 62, 49, 32, 45, 32, 97, 98, 99, 100, 101, 102, 103, 104, 105, 108, 109, 110, 111, 112, 113, 114, 115, 116, 117, 118, 122, 97, 98, 99, 100, 101, 102, 103, 104, 105, 108, 109, 110, 111, 112, 113, 114, 115, 116, 117, 118, 122, 97, 98, 99, 100, 101, 102, 103, 104, 105, 108, 109, 110, 111, 112, 113, 114, 115, 116, 117, 118, 122, 97, 98, 99, 100, 101, 102, 103, 104, 105, 108, 109, 110, 111, 112, 113, 114, 115, 116, 117, 118, 122, 97, 98, 99, 100, 101, 102, 103, 104, 105, 108, 109, 110, 111, 112, 113, 114, 115, 116, 117, 118, 122, 97, 98, 99, 100, 101, 102, 103, 104, 105, 108, 109, 110, 111, 112, 113, 114, 115, 116, 117, 118, 122, 97, 98, 99, 100, 101, 102, 103, 104, 105, 108, 109, 110, 111, 112, 113, 114, 115, 116, 117, 118, 122, 97, 98, 99, 100, 101, 102, 103, 104, 105, 108, 109, 110, 111, 112, 113, 114, 115, 116, 117, 118, 122, 97, 98, 99, 100, 101, 102, 103, 104, 105, 108, 109, 110, 111, 112, 113, 114, 115, 116, 117, 118, 122, 97, 98, 99, 100, 101, 102, 103, 104, 105, 108, 109, 110, 111, 112, 113, 114, 115, 116, 117, 118, 122, 97, 98, 99, 100, 101, 102, 103, 104, 105, 108, 109, 110, 111, 112, 113, 114, 115, 116, 117, 118, 122, 97, 98, 99, 100, 101, 102, 103, 104, 105, 108, 109, 110, 111, 112, 113, 114, 115, 116, 117, 118, 122, 97, 98, 99, 88, 32, 45, 32, 45, 32, 45, 32, 45] ⟨.hostname, 262⟩ (some (built [.version 1, .priority 1])) = true := by decide +kernel

end Verif.Conformance
