import Verif.Conformance.Basic

/-!
# `TestParse` (octetcounting/parser_test.go)

Written by `tools/conform.py`; do not edit. One `example` per test case of the repository, with the line of the case.
-/

namespace Verif.Conformance
open Verif.Builder (Call)

/-- octetcounting/parser_test.go:34 empty -/
example : octet false 8192 ([] : Bytes) [⟨none, (some [102, 111, 117, 110, 100, 32, 69, 79, 70, 44, 32, 101, 120, 112, 101, 99, 116, 105, 110, 103, 32, 97, 32, 77, 83, 71, 76, 69, 78])⟩] = true := by decide +kernel
/-- octetcounting/parser_test.go:34 empty -/
example : octet true 8192 ([] : Bytes) [⟨none, (some [102, 111, 117, 110, 100, 32, 69, 79, 70, 44, 32, 101, 120, 112, 101, 99, 116, 105, 110, 103, 32, 97, 32, 77, 83, 71, 76, 69, 78])⟩] = true := by decide +kernel
/-- octetcounting/parser_test.go:44 1st ok/2nd mf -/
example : octet false 8192 [49, 54, 32, 60, 49, 62, 49, 32, 45, 32, 45, 32, 45, 32, 45, 32, 45, 32, 45, 49, 55, 32, 60, 50, 62, 49, 50, 32, 65, 32, 66, 32, 67, 32, 68, 32, 69, 32, 45] [⟨(some (built [.priority 1, .version 1])), none⟩, ⟨none, (some [101, 120, 112, 101, 99, 116, 105, 110, 103, 32, 97, 32, 82, 70, 67, 51, 51, 51, 57, 77, 73, 67, 82, 79, 32, 116, 105, 109, 101, 115, 116, 97, 109, 112, 32, 111, 114, 32, 97, 32, 110, 105, 108, 32, 118, 97, 108, 117, 101, 32, 91, 99, 111, 108, 32, 54, 93])⟩] = true := by decide +kernel
/-- octetcounting/parser_test.go:44 1st ok/2nd mf -/
example : octet true 8192 [49, 54, 32, 60, 49, 62, 49, 32, 45, 32, 45, 32, 45, 32, 45, 32, 45, 32, 45, 49, 55, 32, 60, 50, 62, 49, 50, 32, 65, 32, 66, 32, 67, 32, 68, 32, 69, 32, 45] [⟨(some (built [.priority 1, .version 1])), none⟩, ⟨(some (built [.priority 2, .version 12])), (some [101, 120, 112, 101, 99, 116, 105, 110, 103, 32, 97, 32, 82, 70, 67, 51, 51, 51, 57, 77, 73, 67, 82, 79, 32, 116, 105, 109, 101, 115, 116, 97, 109, 112, 32, 111, 114, 32, 97, 32, 110, 105, 108, 32, 118, 97, 108, 117, 101, 32, 91, 99, 111, 108, 32, 54, 93])⟩] = true := by decide +kernel
/-- octetcounting/parser_test.go:67 1st ok/2nd ko -/
example : octet false 8192 [49, 54, 32, 60, 49, 62, 49, 32, 45, 32, 45, 32, 45, 32, 45, 32, 45, 32, 45, 120, 97, 97, 97] [⟨(some (built [.priority 1, .version 1])), none⟩, ⟨none, (some [102, 111, 117, 110, 100, 32, 73, 76, 76, 69, 71, 65, 76, 40, 120, 41, 44, 32, 101, 120, 112, 101, 99, 116, 105, 110, 103, 32, 97, 32, 77, 83, 71, 76, 69, 78])⟩] = true := by decide +kernel
/-- octetcounting/parser_test.go:67 1st ok/2nd ko -/
example : octet true 8192 [49, 54, 32, 60, 49, 62, 49, 32, 45, 32, 45, 32, 45, 32, 45, 32, 45, 32, 45, 120, 97, 97, 97] [⟨(some (built [.priority 1, .version 1])), none⟩, ⟨none, (some [102, 111, 117, 110, 100, 32, 73, 76, 76, 69, 71, 65, 76, 40, 120, 41, 44, 32, 101, 120, 112, 101, 99, 116, 105, 110, 103, 32, 97, 32, 77, 83, 71, 76, 69, 78])⟩] = true := by decide +kernel
/-- octetcounting/parser_test.go:89 1st ml/2nd ko -/
example : octet false 8192 [49, 54, 32, 60, 49, 62, 49, 32, 65, 32, 66, 32, 67, 32, 68, 32, 69, 32, 45, 120, 97, 97, 97] [⟨none, (some [101, 120, 112, 101, 99, 116, 105, 110, 103, 32, 97, 32, 82, 70, 67, 51, 51, 51, 57, 77, 73, 67, 82, 79, 32, 116, 105, 109, 101, 115, 116, 97, 109, 112, 32, 111, 114, 32, 97, 32, 110, 105, 108, 32, 118, 97, 108, 117, 101, 32, 91, 99, 111, 108, 32, 53, 93])⟩] = true := by decide +kernel
/-- octetcounting/parser_test.go:89 1st ml/2nd ko -/
example : octet true 8192 [49, 54, 32, 60, 49, 62, 49, 32, 65, 32, 66, 32, 67, 32, 68, 32, 69, 32, 45, 120, 97, 97, 97] [⟨(some (built [.priority 1, .version 1])), (some [101, 120, 112, 101, 99, 116, 105, 110, 103, 32, 97, 32, 82, 70, 67, 51, 51, 51, 57, 77, 73, 67, 82, 79, 32, 116, 105, 109, 101, 115, 116, 97, 109, 112, 32, 111, 114, 32, 97, 32, 110, 105, 108, 32, 118, 97, 108, 117, 101, 32, 91, 99, 111, 108, 32, 53, 93])⟩, ⟨none, (some [102, 111, 117, 110, 100, 32, 73, 76, 76, 69, 71, 65, 76, 40, 120, 41, 44, 32, 101, 120, 112, 101, 99, 116, 105, 110, 103, 32, 97, 32, 77, 83, 71, 76, 69, 78])⟩] = true := by decide +kernel
/-- octetcounting/parser_test.go:109 1st ok//utf8 -/
example : octet false 8192 [50, 51, 32, 60, 49, 62, 49, 32, 45, 32, 45, 32, 45, 32, 45, 32, 45, 32, 45, 32, 104, 101, 108, 108, 195, 184] [⟨(some (built [.priority 1, .version 1, .message [104, 101, 108, 108, 195, 184]])), none⟩] = true := by decide +kernel
/-- octetcounting/parser_test.go:109 1st ok//utf8 -/
example : octet true 8192 [50, 51, 32, 60, 49, 62, 49, 32, 45, 32, 45, 32, 45, 32, 45, 32, 45, 32, 45, 32, 104, 101, 108, 108, 195, 184] [⟨(some (built [.priority 1, .version 1, .message [104, 101, 108, 108, 195, 184]])), none⟩] = true := by decide +kernel
/-- octetcounting/parser_test.go:131 1st ko//incomplete SYSLOGMSG -/
example : octet false 8192 [49, 54, 32, 60, 49, 62, 49] [⟨none, (some [102, 111, 117, 110, 100, 32, 69, 79, 70, 32, 97, 102, 116, 101, 114, 32, 34, 60, 49, 62, 49, 34, 44, 32, 101, 120, 112, 101, 99, 116, 105, 110, 103, 32, 97, 32, 83, 89, 83, 76, 79, 71, 77, 83, 71, 32, 99, 111, 110, 116, 97, 105, 110, 105, 110, 103, 32, 49, 54, 32, 111, 99, 116, 101, 116, 115])⟩] = true := by decide +kernel
/-- octetcounting/parser_test.go:131 1st ko//incomplete SYSLOGMSG -/
example : octet true 8192 [49, 54, 32, 60, 49, 62, 49] [⟨(some (built [.priority 1, .version 1])), (some [112, 97, 114, 115, 105, 110, 103, 32, 101, 114, 114, 111, 114, 32, 91, 99, 111, 108, 32, 52, 93])⟩] = true := by decide +kernel
/-- octetcounting/parser_test.go:149 1st ko//missing WS found ILLEGAL -/
example : octet false 8192 [49, 54, 60, 49, 62, 49] [⟨none, (some [102, 111, 117, 110, 100, 32, 73, 76, 76, 69, 71, 65, 76, 40, 60, 41, 44, 32, 101, 120, 112, 101, 99, 116, 105, 110, 103, 32, 97, 32, 87, 83])⟩] = true := by decide +kernel
/-- octetcounting/parser_test.go:149 1st ko//missing WS found ILLEGAL -/
example : octet true 8192 [49, 54, 60, 49, 62, 49] [⟨none, (some [102, 111, 117, 110, 100, 32, 73, 76, 76, 69, 71, 65, 76, 40, 60, 41, 44, 32, 101, 120, 112, 101, 99, 116, 105, 110, 103, 32, 97, 32, 87, 83])⟩] = true := by decide +kernel
/-- octetcounting/parser_test.go:165 1st ko//missing WS found EOF -/
example : octet false 8192 [49] [⟨none, (some [102, 111, 117, 110, 100, 32, 69, 79, 70, 44, 32, 101, 120, 112, 101, 99, 116, 105, 110, 103, 32, 97, 32, 87, 83])⟩] = true := by decide +kernel
/-- octetcounting/parser_test.go:165 1st ko//missing WS found EOF -/
example : octet true 8192 [49] [⟨none, (some [102, 111, 117, 110, 100, 32, 69, 79, 70, 44, 32, 101, 120, 112, 101, 99, 116, 105, 110, 103, 32, 97, 32, 87, 83])⟩] = true := by decide +kernel
/-- octetcounting/parser_test.go:181 1st ok/2nd ok/3rd ok -/
example : octet false 8192 [52, 56, 32, 60, 49, 62, 49, 32, 50, 48, 48, 51, 45, 49, 48, 45, 49, 49, 84, 50, 50, 58, 49, 52, 58, 49, 53, 46, 48, 48, 51, 90, 32, 104, 111, 115, 116, 46, 108, 111, 99, 97, 108, 32, 45, 32, 45, 32, 45, 32, 45, 50, 53, 32, 60, 51, 62, 49, 32, 45, 32, 104, 111, 115, 116, 46, 108, 111, 99, 97, 108, 32, 45, 32, 45, 32, 45, 32, 45, 51, 56, 32, 60, 50, 62, 49, 32, 45, 32, 104, 111, 115, 116, 46, 108, 111, 99, 97, 108, 32, 115, 117, 32, 45, 32, 45, 32, 45, 32, 206, 186, 225, 189, 185, 207, 131, 206, 188, 206, 181] [⟨(some (built [.priority 1, .version 1, .timestamp [50, 48, 48, 51, 45, 49, 48, 45, 49, 49, 84, 50, 50, 58, 49, 52, 58, 49, 53, 46, 48, 48, 51, 90], .hostname [104, 111, 115, 116, 46, 108, 111, 99, 97, 108]])), none⟩, ⟨(some (built [.priority 3, .version 1, .hostname [104, 111, 115, 116, 46, 108, 111, 99, 97, 108]])), none⟩, ⟨(some (built [.priority 2, .version 1, .hostname [104, 111, 115, 116, 46, 108, 111, 99, 97, 108], .appname [115, 117], .message [206, 186, 225, 189, 185, 207, 131, 206, 188, 206, 181]])), none⟩] = true := by decide +kernel
/-- octetcounting/parser_test.go:181 1st ok/2nd ok/3rd ok -/
example : octet true 8192 [52, 56, 32, 60, 49, 62, 49, 32, 50, 48, 48, 51, 45, 49, 48, 45, 49, 49, 84, 50, 50, 58, 49, 52, 58, 49, 53, 46, 48, 48, 51, 90, 32, 104, 111, 115, 116, 46, 108, 111, 99, 97, 108, 32, 45, 32, 45, 32, 45, 32, 45, 50, 53, 32, 60, 51, 62, 49, 32, 45, 32, 104, 111, 115, 116, 46, 108, 111, 99, 97, 108, 32, 45, 32, 45, 32, 45, 32, 45, 51, 56, 32, 60, 50, 62, 49, 32, 45, 32, 104, 111, 115, 116, 46, 108, 111, 99, 97, 108, 32, 115, 117, 32, 45, 32, 45, 32, 45, 32, 206, 186, 225, 189, 185, 207, 131, 206, 188, 206, 181] [⟨(some (built [.priority 1, .version 1, .timestamp [50, 48, 48, 51, 45, 49, 48, 45, 49, 49, 84, 50, 50, 58, 49, 52, 58, 49, 53, 46, 48, 48, 51, 90], .hostname [104, 111, 115, 116, 46, 108, 111, 99, 97, 108]])), none⟩, ⟨(some (built [.priority 3, .version 1, .hostname [104, 111, 115, 116, 46, 108, 111, 99, 97, 108]])), none⟩, ⟨(some (built [.priority 2, .version 1, .hostname [104, 111, 115, 116, 46, 108, 111, 99, 97, 108], .appname [115, 117], .message [206, 186, 225, 189, 185, 207, 131, 206, 188, 206, 181]])), none⟩] = true := by decide +kernel
/-- octetcounting/parser_test.go:233 1st ok/2nd mf/3rd ok -/
example : octet false 8192 [49, 54, 32, 60, 49, 62, 49, 32, 45, 32, 45, 32, 45, 32, 45, 32, 45, 32, 45, 49, 55, 32, 60, 50, 62, 49, 50, 32, 65, 32, 66, 32, 67, 32, 68, 32, 69, 32, 45, 49, 54, 32, 60, 49, 62, 49, 32, 45, 32, 45, 32, 45, 32, 45, 32, 45, 32, 45] [⟨(some (built [.priority 1, .version 1])), none⟩, ⟨none, (some [101, 120, 112, 101, 99, 116, 105, 110, 103, 32, 97, 32, 82, 70, 67, 51, 51, 51, 57, 77, 73, 67, 82, 79, 32, 116, 105, 109, 101, 115, 116, 97, 109, 112, 32, 111, 114, 32, 97, 32, 110, 105, 108, 32, 118, 97, 108, 117, 101, 32, 91, 99, 111, 108, 32, 54, 93])⟩] = true := by decide +kernel
/-- octetcounting/parser_test.go:233 1st ok/2nd mf/3rd ok -/
example : octet true 8192 [49, 54, 32, 60, 49, 62, 49, 32, 45, 32, 45, 32, 45, 32, 45, 32, 45, 32, 45, 49, 55, 32, 60, 50, 62, 49, 50, 32, 65, 32, 66, 32, 67, 32, 68, 32, 69, 32, 45, 49, 54, 32, 60, 49, 62, 49, 32, 45, 32, 45, 32, 45, 32, 45, 32, 45, 32, 45] [⟨(some (built [.priority 1, .version 1])), none⟩, ⟨(some (built [.priority 2, .version 12])), (some [101, 120, 112, 101, 99, 116, 105, 110, 103, 32, 97, 32, 82, 70, 67, 51, 51, 51, 57, 77, 73, 67, 82, 79, 32, 116, 105, 109, 101, 115, 116, 97, 109, 112, 32, 111, 114, 32, 97, 32, 110, 105, 108, 32, 118, 97, 108, 117, 101, 32, 91, 99, 111, 108, 32, 54, 93])⟩, ⟨(some (built [.priority 1, .version 1])), none⟩] = true := by decide +kernel
/-- octetcounting/parser_test.go:567 MSGLEN gt max message length -/
example : octet false 10 [49, 54, 32, 60, 49, 62, 49, 32, 45, 32, 45, 32, 45, 32, 45, 32, 45, 32, 45] [⟨none, (some [109, 101, 115, 115, 97, 103, 101, 32, 116, 111, 111, 32, 108, 111, 110, 103, 32, 116, 111, 32, 112, 97, 114, 115, 101, 46, 32, 119, 97, 115, 32, 115, 105, 122, 101, 32, 49, 54, 44, 32, 109, 97, 120, 32, 108, 101, 110, 103, 116, 104, 32, 49, 48])⟩] = true := by decide +kernel
/-- octetcounting/parser_test.go:567 MSGLEN gt max message length -/
example : octet true 10 [49, 54, 32, 60, 49, 62, 49, 32, 45, 32, 45, 32, 45, 32, 45, 32, 45, 32, 45] [⟨none, (some [109, 101, 115, 115, 97, 103, 101, 32, 116, 111, 111, 32, 108, 111, 110, 103, 32, 116, 111, 32, 112, 97, 114, 115, 101, 46, 32, 119, 97, 115, 32, 115, 105, 122, 101, 32, 49, 54, 44, 32, 109, 97, 120, 32, 108, 101, 110, 103, 116, 104, 32, 49, 48])⟩] = true := by decide +kernel
/-- octetcounting/parser_test.go:578 1st uf/2nd ok//incomplete SYSLOGMSG/notdetectable -/
example : octet false 8192 [49, 54, 32, 60, 49, 62, 50, 49, 55, 32, 60, 49, 49, 62, 49, 32, 45, 32, 45, 32, 45, 32, 45, 32, 45, 32, 45] [⟨none, (some [101, 120, 112, 101, 99, 116, 105, 110, 103, 32, 97, 32, 82, 70, 67, 51, 51, 51, 57, 77, 73, 67, 82, 79, 32, 116, 105, 109, 101, 115, 116, 97, 109, 112, 32, 111, 114, 32, 97, 32, 110, 105, 108, 32, 118, 97, 108, 117, 101, 32, 91, 99, 111, 108, 32, 55, 93])⟩] = true := by decide +kernel
/-- octetcounting/parser_test.go:578 1st uf/2nd ok//incomplete SYSLOGMSG/notdetectable -/
example : octet true 8192 [49, 54, 32, 60, 49, 62, 50, 49, 55, 32, 60, 49, 49, 62, 49, 32, 45, 32, 45, 32, 45, 32, 45, 32, 45, 32, 45] [⟨(some (built [.priority 1, .version 217])), (some [101, 120, 112, 101, 99, 116, 105, 110, 103, 32, 97, 32, 82, 70, 67, 51, 51, 51, 57, 77, 73, 67, 82, 79, 32, 116, 105, 109, 101, 115, 116, 97, 109, 112, 32, 111, 114, 32, 97, 32, 110, 105, 108, 32, 118, 97, 108, 117, 101, 32, 91, 99, 111, 108, 32, 55, 93])⟩, ⟨none, (some [102, 111, 117, 110, 100, 32, 87, 83, 44, 32, 101, 120, 112, 101, 99, 116, 105, 110, 103, 32, 97, 32, 77, 83, 71, 76, 69, 78])⟩] = true := by decide +kernel

end Verif.Conformance
