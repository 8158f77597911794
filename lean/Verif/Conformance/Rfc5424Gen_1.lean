import Verif.Conformance.Basic

/-!
# the generated cases of `TestMachineParse` (rfc5424/machine_test.go)

Written by `tools/conform.py`; do not edit. One `example` per test case of the repository, with the line of the case.
-/

namespace Verif.Conformance
open Verif.Builder (Call)

/-- rfc5424/machine_test.go:1586 `<1>1 2` -/
example : invalid5424 false [60, 49, 62, 49, 32, 50] ⟨.timestamp, 6⟩ (some (built [.version 1, .priority 1])) = true := by decide +kernel
/-- rfc5424/machine_test.go:1586 `<1>1 20` -/
example : invalid5424 false [60, 49, 62, 49, 32, 50, 48] ⟨.timestamp, 7⟩ (some (built [.version 1, .priority 1])) = true := by decide +kernel
/-- rfc5424/machine_test.go:1586 `<1>1 200` -/
example : invalid5424 false [60, 49, 62, 49, 32, 50, 48, 48] ⟨.timestamp, 8⟩ (some (built [.version 1, .priority 1])) = true := by decide +kernel
/-- rfc5424/machine_test.go:1586 `<1>1 2003` -/
example : invalid5424 false [60, 49, 62, 49, 32, 50, 48, 48, 51] ⟨.timestamp, 9⟩ (some (built [.version 1, .priority 1])) = true := by decide +kernel
/-- rfc5424/machine_test.go:1586 `<1>1 2003-` -/
example : invalid5424 false [60, 49, 62, 49, 32, 50, 48, 48, 51, 45] ⟨.timestamp, 10⟩ (some (built [.version 1, .priority 1])) = true := by decide +kernel
/-- rfc5424/machine_test.go:1586 `<1>1 2003-1` -/
example : invalid5424 false [60, 49, 62, 49, 32, 50, 48, 48, 51, 45, 49] ⟨.timestamp, 11⟩ (some (built [.version 1, .priority 1])) = true := by decide +kernel
/-- rfc5424/machine_test.go:1586 `<1>1 2003-11` -/
example : invalid5424 false [60, 49, 62, 49, 32, 50, 48, 48, 51, 45, 49, 49] ⟨.timestamp, 12⟩ (some (built [.version 1, .priority 1])) = true := by decide +kernel
/-- rfc5424/machine_test.go:1586 `<1>1 2003-11-` -/
example : invalid5424 false [60, 49, 62, 49, 32, 50, 48, 48, 51, 45, 49, 49, 45] ⟨.timestamp, 13⟩ (some (built [.version 1, .priority 1])) = true := by decide +kernel
/-- rfc5424/machine_test.go:1586 `<1>1 2003-11-0` -/
example : invalid5424 false [60, 49, 62, 49, 32, 50, 48, 48, 51, 45, 49, 49, 45, 48] ⟨.timestamp, 14⟩ (some (built [.version 1, .priority 1])) = true := by decide +kernel
/-- rfc5424/machine_test.go:1586 `<1>1 2003-11-02` -/
example : invalid5424 false [60, 49, 62, 49, 32, 50, 48, 48, 51, 45, 49, 49, 45, 48, 50] ⟨.timestamp, 15⟩ (some (built [.version 1, .priority 1])) = true := by decide +kernel
/-- rfc5424/machine_test.go:1586 `<1>1 2003-11-02T` -/
example : invalid5424 false [60, 49, 62, 49, 32, 50, 48, 48, 51, 45, 49, 49, 45, 48, 50, 84] ⟨.timestamp, 16⟩ (some (built [.version 1, .priority 1])) = true := by decide +kernel
/-- rfc5424/machine_test.go:1586 `<1>1 2003-11-02T2` -/
example : invalid5424 false [60, 49, 62, 49, 32, 50, 48, 48, 51, 45, 49, 49, 45, 48, 50, 84, 50] ⟨.timestamp, 17⟩ (some (built [.version 1, .priority 1])) = true := by decide +kernel
/-- rfc5424/machine_test.go:1586 `<1>1 2003-11-02T23` -/
example : invalid5424 false [60, 49, 62, 49, 32, 50, 48, 48, 51, 45, 49, 49, 45, 48, 50, 84, 50, 51] ⟨.timestamp, 18⟩ (some (built [.version 1, .priority 1])) = true := by decide +kernel
/-- rfc5424/machine_test.go:1586 `<1>1 2003-11-02T23:` -/
example : invalid5424 false [60, 49, 62, 49, 32, 50, 48, 48, 51, 45, 49, 49, 45, 48, 50, 84, 50, 51, 58] ⟨.timestamp, 19⟩ (some (built [.version 1, .priority 1])) = true := by decide +kernel
/-- rfc5424/machine_test.go:1586 `<1>1 2003-11-02T23:1` -/
example : invalid5424 false [60, 49, 62, 49, 32, 50, 48, 48, 51, 45, 49, 49, 45, 48, 50, 84, 50, 51, 58, 49] ⟨.timestamp, 20⟩ (some (built [.version 1, .priority 1])) = true := by decide +kernel
/-- rfc5424/machine_test.go:1586 `<1>1 2003-11-02T23:12` -/
example : invalid5424 false [60, 49, 62, 49, 32, 50, 48, 48, 51, 45, 49, 49, 45, 48, 50, 84, 50, 51, 58, 49, 50] ⟨.timestamp, 21⟩ (some (built [.version 1, .priority 1])) = true := by decide +kernel
/-- rfc5424/machine_test.go:1586 `<1>1 2003-11-02T23:12:` -/
example : invalid5424 false [60, 49, 62, 49, 32, 50, 48, 48, 51, 45, 49, 49, 45, 48, 50, 84, 50, 51, 58, 49, 50, 58] ⟨.timestamp, 22⟩ (some (built [.version 1, .priority 1])) = true := by decide +kernel
/-- rfc5424/machine_test.go:1586 `<1>1 2003-11-02T23:12:4` -/
example : invalid5424 false [60, 49, 62, 49, 32, 50, 48, 48, 51, 45, 49, 49, 45, 48, 50, 84, 50, 51, 58, 49, 50, 58, 52] ⟨.timestamp, 23⟩ (some (built [.version 1, .priority 1])) = true := by decide +kernel
/-- rfc5424/machine_test.go:1586 `<1>1 2003-11-02T23:12:46` -/
example : invalid5424 false [60, 49, 62, 49, 32, 50, 48, 48, 51, 45, 49, 49, 45, 48, 50, 84, 50, 51, 58, 49, 50, 58, 52, 54] ⟨.timestamp, 24⟩ (some (built [.version 1, .priority 1])) = true := by decide +kernel
/-- rfc5424/machine_test.go:1586 `<1>1 2003-11-02T23:12:46.` -/
example : invalid5424 false [60, 49, 62, 49, 32, 50, 48, 48, 51, 45, 49, 49, 45, 48, 50, 84, 50, 51, 58, 49, 50, 58, 52, 54, 46] ⟨.timestamp, 25⟩ (some (built [.version 1, .priority 1])) = true := by decide +kernel
/-- rfc5424/machine_test.go:1586 `<1>1 2003-11-02T23:12:46.0` -/
example : invalid5424 false [60, 49, 62, 49, 32, 50, 48, 48, 51, 45, 49, 49, 45, 48, 50, 84, 50, 51, 58, 49, 50, 58, 52, 54, 46, 48] ⟨.timestamp, 26⟩ (some (built [.version 1, .priority 1])) = true := by decide +kernel
/-- rfc5424/machine_test.go:1586 `<1>1 2003-11-02T23:12:46.01` -/
example : invalid5424 false [60, 49, 62, 49, 32, 50, 48, 48, 51, 45, 49, 49, 45, 48, 50, 84, 50, 51, 58, 49, 50, 58, 52, 54, 46, 48, 49] ⟨.timestamp, 27⟩ (some (built [.version 1, .priority 1])) = true := by decide +kernel
/-- rfc5424/machine_test.go:1586 `<1>1 2003-11-02T23:12:46.012` -/
example : invalid5424 false [60, 49, 62, 49, 32, 50, 48, 48, 51, 45, 49, 49, 45, 48, 50, 84, 50, 51, 58, 49, 50, 58, 52, 54, 46, 48, 49, 50] ⟨.timestamp, 28⟩ (some (built [.version 1, .priority 1])) = true := by decide +kernel
/-- rfc5424/machine_test.go:1586 `<1>1 2003-11-02T23:12:46.0123` -/
example : invalid5424 false [60, 49, 62, 49, 32, 50, 48, 48, 51, 45, 49, 49, 45, 48, 50, 84, 50, 51, 58, 49, 50, 58, 52, 54, 46, 48, 49, 50, 51] ⟨.timestamp, 29⟩ (some (built [.version 1, .priority 1])) = true := by decide +kernel
/-- rfc5424/machine_test.go:1586 `<1>1 2003-11-02T23:12:46.01234` -/
example : invalid5424 false [60, 49, 62, 49, 32, 50, 48, 48, 51, 45, 49, 49, 45, 48, 50, 84, 50, 51, 58, 49, 50, 58, 52, 54, 46, 48, 49, 50, 51, 52] ⟨.timestamp, 30⟩ (some (built [.version 1, .priority 1])) = true := by decide +kernel
/-- rfc5424/machine_test.go:1586 `<1>1 2003-11-02T23:12:46.012345` -/
example : invalid5424 false [60, 49, 62, 49, 32, 50, 48, 48, 51, 45, 49, 49, 45, 48, 50, 84, 50, 51, 58, 49, 50, 58, 52, 54, 46, 48, 49, 50, 51, 52, 53] ⟨.timestamp, 31⟩ (some (built [.version 1, .priority 1])) = true := by decide +kernel
/-- rfc5424/machine_test.go:1609 `<0>1 - A - - - -` -/
example : valid5424 false [60, 48, 62, 49, 32, 45, 32, 65, 32, 45, 32, 45, 32, 45, 32, 45] { (built [.version 1, .priority 0]) with hostname := (some [65]) } = true := by decide +kernel
/-- rfc5424/machine_test.go:1609 `<1>2 - Ah - - - -` -/
example : valid5424 false [60, 49, 62, 50, 32, 45, 32, 65, 104, 32, 45, 32, 45, 32, 45, 32, 45] { (built [.version 2, .priority 1]) with hostname := (some [65, 104]) } = true := by decide +kernel
/-- rfc5424/machine_test.go:1609 `<2>3 - Aho - - - -` -/
example : valid5424 false [60, 50, 62, 51, 32, 45, 32, 65, 104, 111, 32, 45, 32, 45, 32, 45, 32, 45] { (built [.version 3, .priority 2]) with hostname := (some [65, 104, 111]) } = true := by decide +kernel
/-- rfc5424/machine_test.go:1609 `<3>4 - AhoP - - - -` -/
example : valid5424 false [60, 51, 62, 52, 32, 45, 32, 65, 104, 111, 80, 32, 45, 32, 45, 32, 45, 32, 45] { (built [.version 4, .priority 3]) with hostname := (some [65, 104, 111, 80]) } = true := by decide +kernel
/-- rfc5424/machine_test.go:1609 `<4>5 - AhoPc - - - -` -/
example : valid5424 false [60, 52, 62, 53, 32, 45, 32, 65, 104, 111, 80, 99, 32, 45, 32, 45, 32, 45, 32, 45] { (built [.version 5, .priority 4]) with hostname := (some [65, 104, 111, 80, 99]) } = true := by decide +kernel
/-- rfc5424/machine_test.go:1609 `<5>6 - AhoPcj - - - -` -/
example : valid5424 false [60, 53, 62, 54, 32, 45, 32, 65, 104, 111, 80, 99, 106, 32, 45, 32, 45, 32, 45, 32, 45] { (built [.version 6, .priority 5]) with hostname := (some [65, 104, 111, 80, 99, 106]) } = true := by decide +kernel
/-- rfc5424/machine_test.go:1609 `<6>7 - AhoPcjE - - - -` -/
example : valid5424 false [60, 54, 62, 55, 32, 45, 32, 65, 104, 111, 80, 99, 106, 69, 32, 45, 32, 45, 32, 45, 32, 45] { (built [.version 7, .priority 6]) with hostname := (some [65, 104, 111, 80, 99, 106, 69]) } = true := by decide +kernel
/-- rfc5424/machine_test.go:1609 `<7>8 - AhoPcjEx - - - -` -/
example : valid5424 false [60, 55, 62, 56, 32, 45, 32, 65, 104, 111, 80, 99, 106, 69, 120, 32, 45, 32, 45, 32, 45, 32, 45] { (built [.version 8, .priority 7]) with hostname := (some [65, 104, 111, 80, 99, 106, 69, 120]) } = true := by decide +kernel
/-- rfc5424/machine_test.go:1609 `<4>8 - AhoPcjExeTszInuXipMdkByfQtaFovUjqJelYzgNubCpwRkrGfmVahKvcZqxOlsDgnSbiHwdWryLmtAhoPcjExeTszInuXipMdkByfQtaFovUjqJelYzgNubCpwRkrGfmVahKvcZqxOlsDgnSbiHwdWryLmtAhoPcjExeTszInuXipMdkByfQtaFovUjqJelYzgNubCpwRkrGfmVahKvcZqxOlsDgnSbiHwdWryLmtAhoPcjExeTszIn - - - -` -/
example : valid5424 false [60, 52, 62, 56, 32, 45, 32, 65, 104, 111, 80, 99, 106, 69, 120, 101, 84, 115, 122, 73, 110, 117, 88, 105, 112, 77, 100, 107, 66, 121, 102, 81, 116, 97, 70, 111, 118, 85, 106, 113, 74, 101, 108, 89, 122, 103, 78, 117, 98, 67, 112, 119, 82, 107, 114, 71, 102, 109, 86, 97, 104, 75, 118, 99, 90, 113, 120, 79, 108, 115, 68, 103, 110, 83, 98, 105, 72, 119, 100, 87, 114, 121, 76, 109, 116, 65, 104, 111, 80, 99, 106, 69, 120, 101, 84, 115, 122, 73, 110, 117, 88, 105, 112, 77, 100, 107, 66, 121, 102, 81, 116, 97, 70, 111, 118, 85, 106, 113, 74, 101, 108, 89, 122, 103, 78, 117, 98, 67, 112, 119, 82, 107, 114, 71, 102, 109, 86, 97, 104, 75, 118, 99, 90, 113, 120, 79, 108, 115, 68, 103, 110, 83, 98, 105, 72, 119, 100, 87, 114, 121, 76, 109, 116, 65, 104, 111, 80, 99, 106, 69, 120, 101, 84, 115, 122, 73, 110, 117, 88, 105, 112, 77, 100, 107, 66, 121, 102, 81, 116, 97, 70, 111, 118, 85, 106, 113, 74, 101, 108, 89, 122, 103, 78, 117, 98, 67, 112, 119, 82, 107, 114, 71, 102, 109, 86, 97, 104, 75, 118, 99, 90, 113, 120, 79, 108, 115, 68, 103, 110, 83, 98, 105, 72, 119, 100, 87, 114, 121, 76, 109, 116, 65, 104, 111, 80, 99, 106, 69, 120, 101, 84, 115, 122, 73, 110, 32, 45, 32, 45, 32, 45, 32, 45] { (built [.version 8, .priority 4]) with hostname := (some [65, 104, 111, 80, 99, 106, 69, 120, 101, 84, 115, 122, 73, 110, 117, 88, 105, 112, 77, 100, 107, 66, 121, 102, 81, 116, 97, 70, 111, 118, 85, 106, 113, 74, 101, 108, 89, 122, 103, 78, 117, 98, 67, 112, 119, 82, 107, 114, 71, 102, 109, 86, 97, 104, 75, 118, 99, 90, 113, 120, 79, 108, 115, 68, 103, 110, 83, 98, 105, 72, 119, 100, 87, 114, 121, 76, 109, 116, 65, 104, 111, 80, 99, 106, 69, 120, 101, 84, 115, 122, 73, 110, 117, 88, 105, 112, 77, 100, 107, 66, 121, 102, 81, 116, 97, 70, 111, 118, 85, 106, 113, 74, 101, 108, 89, 122, 103, 78, 117, 98, 67, 112, 119, 82, 107, 114, 71, 102, 109, 86, 97, 104, 75, 118, 99, 90, 113, 120, 79, 108, 115, 68, 103, 110, 83, 98, 105, 72, 119, 100, 87, 114, 121, 76, 109, 116, 65, 104, 111, 80, 99, 106, 69, 120, 101, 84, 115, 122, 73, 110, 117, 88, 105, 112, 77, 100, 107, 66, 121, 102, 81, 116, 97, 70, 111, 118, 85, 106, 113, 74, 101, 108, 89, 122, 103, 78, 117, 98, 67, 112, 119, 82, 107, 114, 71, 102, 109, 86, 97, 104, 75, 118, 99, 90, 113, 120, 79, 108, 115, 68, 103, 110, 83, 98, 105, 72, 119, 100, 87, 114, 121, 76, 109, 116, 65, 104, 111, 80, 99, 106, 69, 120, 101, 84, 115, 122, 73, 110]) } = true := by decide +kernel
/-- rfc5424/machine_test.go:1609 `<5>1 - AhoPcjExeTszInuXipMdkByfQtaFovUjqJelYzgNubCpwRkrGfmVahKvcZqxOlsDgnSbiHwdWryLmtAhoPcjExeTszInuXipMdkByfQtaFovUjqJelYzgNubCpwRkrGfmVahKvcZqxOlsDgnSbiHwdWryLmtAhoPcjExeTszInuXipMdkByfQtaFovUjqJelYzgNubCpwRkrGfmVahKvcZqxOlsDgnSbiHwdWryLmtAhoPcjExeTszInu - - - -` -/
example : valid5424 false [60, 53, 62, 49, 32, 45, 32, 65, 104, 111, 80, 99, 106, 69, 120, 101, 84, 115, 122, 73, 110, 117, 88, 105, 112, 77, 100, 107, 66, 121, 102, 81, 116, 97, 70, 111, 118, 85, 106, 113, 74, 101, 108, 89, 122, 103, 78, 117, 98, 67, 112, 119, 82, 107, 114, 71, 102, 109, 86, 97, 104, 75, 118, 99, 90, 113, 120, 79, 108, 115, 68, 103, 110, 83, 98, 105, 72, 119, 100, 87, 114, 121, 76, 109, 116, 65, 104, 111, 80, 99, 106, 69, 120, 101, 84, 115, 122, 73, 110, 117, 88, 105, 112, 77, 100, 107, 66, 121, 102, 81, 116, 97, 70, 111, 118, 85, 106, 113, 74, 101, 108, 89, 122, 103, 78, 117, 98, 67, 112, 119, 82, 107, 114, 71, 102, 109, 86, 97, 104, 75, 118, 99, 90, 113, 120, 79, 108, 115, 68, 103, 110, 83, 98, 105, 72, 119, 100, 87, 114, 121, 76, 109, 116, 65, 104, 111, 80, 99, 106, 69, 120, 101, 84, 115, 122, 73, 110, 117, 88, 105, 112, 77, 100, 107, 66, 121, 102, 81, 116, 97, 70, 111, 118, 85, 106, 113, 74, 101, 108, 89, 122, 103, 78, 117, 98, 67, 112, 119, 82, 107, 114, 71, 102, 109, 86, 97, 104, 75, 118, 99, 90, 113, 120, 79, 108, 115, 68, 103, 110, 83, 98, 105, 72, 119, 100, 87, 114, 121, 76, 109, 116, 65, 104, 111, 80, 99, 106, 69, 120, 101, 84, 115, 122, 73, 110, 117, 32, 45, 32, 45, 32, 45, 32, 45] { (built [.version 1, .priority 5]) with hostname := (some [65, 104, 111, 80, 99, 106, 69, 120, 101, 84, 115, 122, 73, 110, 117, 88, 105, 112, 77, 100, 107, 66, 121, 102, 81, 116, 97, 70, 111, 118, 85, 106, 113, 74, 101, 108, 89, 122, 103, 78, 117, 98, 67, 112, 119, 82, 107, 114, 71, 102, 109, 86, 97, 104, 75, 118, 99, 90, 113, 120, 79, 108, 115, 68, 103, 110, 83, 98, 105, 72, 119, 100, 87, 114, 121, 76, 109, 116, 65, 104, 111, 80, 99, 106, 69, 120, 101, 84, 115, 122, 73, 110, 117, 88, 105, 112, 77, 100, 107, 66, 121, 102, 81, 116, 97, 70, 111, 118, 85, 106, 113, 74, 101, 108, 89, 122, 103, 78, 117, 98, 67, 112, 119, 82, 107, 114, 71, 102, 109, 86, 97, 104, 75, 118, 99, 90, 113, 120, 79, 108, 115, 68, 103, 110, 83, 98, 105, 72, 119, 100, 87, 114, 121, 76, 109, 116, 65, 104, 111, 80, 99, 106, 69, 120, 101, 84, 115, 122, 73, 110, 117, 88, 105, 112, 77, 100, 107, 66, 121, 102, 81, 116, 97, 70, 111, 118, 85, 106, 113, 74, 101, 108, 89, 122, 103, 78, 117, 98, 67, 112, 119, 82, 107, 114, 71, 102, 109, 86, 97, 104, 75, 118, 99, 90, 113, 120, 79, 108, 115, 68, 103, 110, 83, 98, 105, 72, 119, 100, 87, 114, 121, 76, 109, 116, 65, 104, 111, 80, 99, 106, 69, 120, 101, 84, 115, 122, 73, 110, 117]) } = true := by decide +kernel

end Verif.Conformance
