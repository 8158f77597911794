import Verif.Conformance.Basic

/-!
# `TestParse` (nontransparent/parser_test.go)

Written by `tools/conform.py`; do not edit. One `example` per test case of the repository, with the line of the case.
-/

namespace Verif.Conformance
open Verif.Builder (Call)

/-- nontransparent/parser_test.go:39 1st ok -/
example : nontransparent false NonTransparent.LF [60, 49, 62, 49, 32, 45, 32, 45, 32, 45, 32, 45, 32, 45, 32, 45, 10] [⟨(some (built [.priority 1, .version 1])), none⟩] = true := by decide +kernel
/-- nontransparent/parser_test.go:39 1st ok -/
example : nontransparent true NonTransparent.LF [60, 49, 62, 49, 32, 45, 32, 45, 32, 45, 32, 45, 32, 45, 32, 45, 10] [⟨(some (built [.priority 1, .version 1])), none⟩] = true := by decide +kernel
/-- nontransparent/parser_test.go:39 1st ok -/
example : nontransparent false NonTransparent.NUL [60, 49, 62, 49, 32, 45, 32, 45, 32, 45, 32, 45, 32, 45, 32, 45, 0] [⟨(some (built [.priority 1, .version 1])), none⟩] = true := by decide +kernel
/-- nontransparent/parser_test.go:39 1st ok -/
example : nontransparent true NonTransparent.NUL [60, 49, 62, 49, 32, 45, 32, 45, 32, 45, 32, 45, 32, 45, 32, 45, 0] [⟨(some (built [.priority 1, .version 1])), none⟩] = true := by decide +kernel
/-- nontransparent/parser_test.go:54 1st ok//notrailer -/
example : nontransparent false NonTransparent.LF [60, 51, 62, 49, 32, 45, 32, 45, 32, 45, 32, 45, 32, 45, 32, 45] [⟨(some (built [.priority 3, .version 1])), (some none)⟩] = true := by decide +kernel
/-- nontransparent/parser_test.go:54 1st ok//notrailer -/
example : nontransparent true NonTransparent.LF [60, 51, 62, 49, 32, 45, 32, 45, 32, 45, 32, 45, 32, 45, 32, 45] [⟨(some (built [.priority 3, .version 1])), (some none)⟩] = true := by decide +kernel
/-- nontransparent/parser_test.go:54 1st ok//notrailer -/
example : nontransparent false NonTransparent.NUL [60, 51, 62, 49, 32, 45, 32, 45, 32, 45, 32, 45, 32, 45, 32, 45] [⟨(some (built [.priority 3, .version 1])), (some none)⟩] = true := by decide +kernel
/-- nontransparent/parser_test.go:54 1st ok//notrailer -/
example : nontransparent true NonTransparent.NUL [60, 51, 62, 49, 32, 45, 32, 45, 32, 45, 32, 45, 32, 45, 32, 45] [⟨(some (built [.priority 3, .version 1])), (some none)⟩] = true := by decide +kernel
/-- nontransparent/parser_test.go:71 1st ok/2nd ok -/
example : nontransparent false NonTransparent.LF [60, 49, 62, 49, 32, 45, 32, 45, 32, 45, 32, 45, 32, 45, 32, 45, 10, 60, 50, 62, 49, 32, 45, 32, 45, 32, 45, 32, 45, 32, 45, 32, 45, 10] [⟨(some (built [.priority 1, .version 1])), none⟩, ⟨(some (built [.priority 2, .version 1])), none⟩] = true := by decide +kernel
/-- nontransparent/parser_test.go:71 1st ok/2nd ok -/
example : nontransparent true NonTransparent.LF [60, 49, 62, 49, 32, 45, 32, 45, 32, 45, 32, 45, 32, 45, 32, 45, 10, 60, 50, 62, 49, 32, 45, 32, 45, 32, 45, 32, 45, 32, 45, 32, 45, 10] [⟨(some (built [.priority 1, .version 1])), none⟩, ⟨(some (built [.priority 2, .version 1])), none⟩] = true := by decide +kernel
/-- nontransparent/parser_test.go:71 1st ok/2nd ok -/
example : nontransparent false NonTransparent.NUL [60, 49, 62, 49, 32, 45, 32, 45, 32, 45, 32, 45, 32, 45, 32, 45, 0, 60, 50, 62, 49, 32, 45, 32, 45, 32, 45, 32, 45, 32, 45, 32, 45, 0] [⟨(some (built [.priority 1, .version 1])), none⟩, ⟨(some (built [.priority 2, .version 1])), none⟩] = true := by decide +kernel
/-- nontransparent/parser_test.go:71 1st ok/2nd ok -/
example : nontransparent true NonTransparent.NUL [60, 49, 62, 49, 32, 45, 32, 45, 32, 45, 32, 45, 32, 45, 32, 45, 0, 60, 50, 62, 49, 32, 45, 32, 45, 32, 45, 32, 45, 32, 45, 32, 45, 0] [⟨(some (built [.priority 1, .version 1])), none⟩, ⟨(some (built [.priority 2, .version 1])), none⟩] = true := by decide +kernel
/-- nontransparent/parser_test.go:92 1st ok/2nd ok//notrailer -/
example : nontransparent false NonTransparent.LF [60, 49, 62, 49, 32, 45, 32, 45, 32, 45, 32, 45, 32, 45, 32, 45, 10, 60, 50, 62, 49, 32, 45, 32, 45, 32, 45, 32, 45, 32, 45, 32, 45] [⟨(some (built [.priority 1, .version 1])), none⟩, ⟨(some (built [.priority 2, .version 1])), (some none)⟩] = true := by decide +kernel
/-- nontransparent/parser_test.go:92 1st ok/2nd ok//notrailer -/
example : nontransparent true NonTransparent.LF [60, 49, 62, 49, 32, 45, 32, 45, 32, 45, 32, 45, 32, 45, 32, 45, 10, 60, 50, 62, 49, 32, 45, 32, 45, 32, 45, 32, 45, 32, 45, 32, 45] [⟨(some (built [.priority 1, .version 1])), none⟩, ⟨(some (built [.priority 2, .version 1])), (some none)⟩] = true := by decide +kernel
/-- nontransparent/parser_test.go:92 1st ok/2nd ok//notrailer -/
example : nontransparent false NonTransparent.NUL [60, 49, 62, 49, 32, 45, 32, 45, 32, 45, 32, 45, 32, 45, 32, 45, 0, 60, 50, 62, 49, 32, 45, 32, 45, 32, 45, 32, 45, 32, 45, 32, 45] [⟨(some (built [.priority 1, .version 1])), none⟩, ⟨(some (built [.priority 2, .version 1])), (some none)⟩] = true := by decide +kernel
/-- nontransparent/parser_test.go:92 1st ok/2nd ok//notrailer -/
example : nontransparent true NonTransparent.NUL [60, 49, 62, 49, 32, 45, 32, 45, 32, 45, 32, 45, 32, 45, 32, 45, 0, 60, 50, 62, 49, 32, 45, 32, 45, 32, 45, 32, 45, 32, 45, 32, 45] [⟨(some (built [.priority 1, .version 1])), none⟩, ⟨(some (built [.priority 2, .version 1])), (some none)⟩] = true := by decide +kernel
/-- nontransparent/parser_test.go:115 1st ok//incomplete/2nd ok//incomplete -/
example : nontransparent false NonTransparent.LF [60, 49, 62, 49, 10, 60, 50, 62, 49, 10] [⟨none, (some (some [112, 97, 114, 115, 105, 110, 103, 32, 101, 114, 114, 111, 114, 32, 91, 99, 111, 108, 32, 52, 93]))⟩, ⟨none, (some (some [112, 97, 114, 115, 105, 110, 103, 32, 101, 114, 114, 111, 114, 32, 91, 99, 111, 108, 32, 52, 93]))⟩] = true := by decide +kernel
/-- nontransparent/parser_test.go:115 1st ok//incomplete/2nd ok//incomplete -/
example : nontransparent true NonTransparent.LF [60, 49, 62, 49, 10, 60, 50, 62, 49, 10] [⟨(some (built [.priority 1, .version 1])), (some (some [112, 97, 114, 115, 105, 110, 103, 32, 101, 114, 114, 111, 114, 32, 91, 99, 111, 108, 32, 52, 93]))⟩, ⟨(some (built [.priority 2, .version 1])), (some (some [112, 97, 114, 115, 105, 110, 103, 32, 101, 114, 114, 111, 114, 32, 91, 99, 111, 108, 32, 52, 93]))⟩] = true := by decide +kernel
/-- nontransparent/parser_test.go:115 1st ok//incomplete/2nd ok//incomplete -/
example : nontransparent false NonTransparent.NUL [60, 49, 62, 49, 0, 60, 50, 62, 49, 0] [⟨none, (some (some [112, 97, 114, 115, 105, 110, 103, 32, 101, 114, 114, 111, 114, 32, 91, 99, 111, 108, 32, 52, 93]))⟩, ⟨none, (some (some [112, 97, 114, 115, 105, 110, 103, 32, 101, 114, 114, 111, 114, 32, 91, 99, 111, 108, 32, 52, 93]))⟩] = true := by decide +kernel
/-- nontransparent/parser_test.go:115 1st ok//incomplete/2nd ok//incomplete -/
example : nontransparent true NonTransparent.NUL [60, 49, 62, 49, 0, 60, 50, 62, 49, 0] [⟨(some (built [.priority 1, .version 1])), (some (some [112, 97, 114, 115, 105, 110, 103, 32, 101, 114, 114, 111, 114, 32, 91, 99, 111, 108, 32, 52, 93]))⟩, ⟨(some (built [.priority 2, .version 1])), (some (some [112, 97, 114, 115, 105, 110, 103, 32, 101, 114, 114, 111, 114, 32, 91, 99, 111, 108, 32, 52, 93]))⟩] = true := by decide +kernel

end Verif.Conformance
