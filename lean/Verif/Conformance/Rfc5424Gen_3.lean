import Verif.Conformance.Basic

/-!
# the generated cases of `TestMachineParse` (rfc5424/machine_test.go)

Written by `tools/conform.py`; do not edit. One `example` per test case of the repository, with the line of the case.
-/

namespace Verif.Conformance
open Verif.Builder (Call)

/-- rfc5424/machine_test.go:1609 `<2>7 - AhoPcjExeTszInuXipMdkByfQtaFovUjqJelYzgNubCpwRkrGfmVahKvcZqxOlsDgnSbiHwdWryLmtAhoPcjExeTszInuXipMdkByfQtaFovUjqJelYzgNubCpwRkrGfmVahKvcZqxOlsDgnSbiHwdWryLmtAhoPcjExeTszInuXipMdkByfQtaFovUjqJelYzgNubCpwRkrGfmVahKvcZqxOlsDgnSbiHwdWryLmtAhoPcjExeTszInuXipMdk - - - -` -/
example : valid5424 false [60, 50, 62, 55, 32, 45, 32, 65, 104, 111, 80, 99, 106, 69, 120, 101, 84, 115, 122, 73, 110, 117, 88, 105, 112, 77, 100, 107, 66, 121, 102, 81, 116, 97, 70, 111, 118, 85, 106, 113, 74, 101, 108, 89, 122, 103, 78, 117, 98, 67, 112, 119, 82, 107, 114, 71, 102, 109, 86, 97, 104, 75, 118, 99, 90, 113, 120, 79, 108, 115, 68, 103, 110, 83, 98, 105, 72, 119, 100, 87, 114, 121, 76, 109, 116, 65, 104, 111, 80, 99, 106, 69, 120, 101, 84, 115, 122, 73, 110, 117, 88, 105, 112, 77, 100, 107, 66, 121, 102, 81, 116, 97, 70, 111, 118, 85, 106, 113, 74, 101, 108, 89, 122, 103, 78, 117, 98, 67, 112, 119, 82, 107, 114, 71, 102, 109, 86, 97, 104, 75, 118, 99, 90, 113, 120, 79, 108, 115, 68, 103, 110, 83, 98, 105, 72, 119, 100, 87, 114, 121, 76, 109, 116, 65, 104, 111, 80, 99, 106, 69, 120, 101, 84, 115, 122, 73, 110, 117, 88, 105, 112, 77, 100, 107, 66, 121, 102, 81, 116, 97, 70, 111, 118, 85, 106, 113, 74, 101, 108, 89, 122, 103, 78, 117, 98, 67, 112, 119, 82, 107, 114, 71, 102, 109, 86, 97, 104, 75, 118, 99, 90, 113, 120, 79, 108, 115, 68, 103, 110, 83, 98, 105, 72, 119, 100, 87, 114, 121, 76, 109, 116, 65, 104, 111, 80, 99, 106, 69, 120, 101, 84, 115, 122, 73, 110, 117, 88, 105, 112, 77, 100, 107, 32, 45, 32, 45, 32, 45, 32, 45] { (built [.version 7, .priority 2]) with hostname := (some [65, 104, 111, 80, 99, 106, 69, 120, 101, 84, 115, 122, 73, 110, 117, 88, 105, 112, 77, 100, 107, 66, 121, 102, 81, 116, 97, 70, 111, 118, 85, 106, 113, 74, 101, 108, 89, 122, 103, 78, 117, 98, 67, 112, 119, 82, 107, 114, 71, 102, 109, 86, 97, 104, 75, 118, 99, 90, 113, 120, 79, 108, 115, 68, 103, 110, 83, 98, 105, 72, 119, 100, 87, 114, 121, 76, 109, 116, 65, 104, 111, 80, 99, 106, 69, 120, 101, 84, 115, 122, 73, 110, 117, 88, 105, 112, 77, 100, 107, 66, 121, 102, 81, 116, 97, 70, 111, 118, 85, 106, 113, 74, 101, 108, 89, 122, 103, 78, 117, 98, 67, 112, 119, 82, 107, 114, 71, 102, 109, 86, 97, 104, 75, 118, 99, 90, 113, 120, 79, 108, 115, 68, 103, 110, 83, 98, 105, 72, 119, 100, 87, 114, 121, 76, 109, 116, 65, 104, 111, 80, 99, 106, 69, 120, 101, 84, 115, 122, 73, 110, 117, 88, 105, 112, 77, 100, 107, 66, 121, 102, 81, 116, 97, 70, 111, 118, 85, 106, 113, 74, 101, 108, 89, 122, 103, 78, 117, 98, 67, 112, 119, 82, 107, 114, 71, 102, 109, 86, 97, 104, 75, 118, 99, 90, 113, 120, 79, 108, 115, 68, 103, 110, 83, 98, 105, 72, 119, 100, 87, 114, 121, 76, 109, 116, 65, 104, 111, 80, 99, 106, 69, 120, 101, 84, 115, 122, 73, 110, 117, 88, 105, 112, 77, 100, 107]) } = true := by decide +kernel
/-- rfc5424/machine_test.go:1609 `<0>1 - - A - - -` -/
example : valid5424 false [60, 48, 62, 49, 32, 45, 32, 45, 32, 65, 32, 45, 32, 45, 32, 45] { (built [.version 1, .priority 0]) with appname := (some [65]) } = true := by decide +kernel
/-- rfc5424/machine_test.go:1609 `<1>2 - - Ah - - -` -/
example : valid5424 false [60, 49, 62, 50, 32, 45, 32, 45, 32, 65, 104, 32, 45, 32, 45, 32, 45] { (built [.version 2, .priority 1]) with appname := (some [65, 104]) } = true := by decide +kernel
/-- rfc5424/machine_test.go:1609 `<2>3 - - Aho - - -` -/
example : valid5424 false [60, 50, 62, 51, 32, 45, 32, 45, 32, 65, 104, 111, 32, 45, 32, 45, 32, 45] { (built [.version 3, .priority 2]) with appname := (some [65, 104, 111]) } = true := by decide +kernel
/-- rfc5424/machine_test.go:1609 `<3>4 - - AhoP - - -` -/
example : valid5424 false [60, 51, 62, 52, 32, 45, 32, 45, 32, 65, 104, 111, 80, 32, 45, 32, 45, 32, 45] { (built [.version 4, .priority 3]) with appname := (some [65, 104, 111, 80]) } = true := by decide +kernel
/-- rfc5424/machine_test.go:1609 `<4>5 - - AhoPc - - -` -/
example : valid5424 false [60, 52, 62, 53, 32, 45, 32, 45, 32, 65, 104, 111, 80, 99, 32, 45, 32, 45, 32, 45] { (built [.version 5, .priority 4]) with appname := (some [65, 104, 111, 80, 99]) } = true := by decide +kernel
/-- rfc5424/machine_test.go:1609 `<5>6 - - AhoPcj - - -` -/
example : valid5424 false [60, 53, 62, 54, 32, 45, 32, 45, 32, 65, 104, 111, 80, 99, 106, 32, 45, 32, 45, 32, 45] { (built [.version 6, .priority 5]) with appname := (some [65, 104, 111, 80, 99, 106]) } = true := by decide +kernel
/-- rfc5424/machine_test.go:1609 `<6>7 - - AhoPcjE - - -` -/
example : valid5424 false [60, 54, 62, 55, 32, 45, 32, 45, 32, 65, 104, 111, 80, 99, 106, 69, 32, 45, 32, 45, 32, 45] { (built [.version 7, .priority 6]) with appname := (some [65, 104, 111, 80, 99, 106, 69]) } = true := by decide +kernel
/-- rfc5424/machine_test.go:1609 `<7>8 - - AhoPcjEx - - -` -/
example : valid5424 false [60, 55, 62, 56, 32, 45, 32, 45, 32, 65, 104, 111, 80, 99, 106, 69, 120, 32, 45, 32, 45, 32, 45] { (built [.version 8, .priority 7]) with appname := (some [65, 104, 111, 80, 99, 106, 69, 120]) } = true := by decide +kernel
/-- rfc5424/machine_test.go:1609 `<4>1 - - AhoPcjExeTszInuXipMdkByfQtaFovUjqJelYzgNu - - -` -/
example : valid5424 false [60, 52, 62, 49, 32, 45, 32, 45, 32, 65, 104, 111, 80, 99, 106, 69, 120, 101, 84, 115, 122, 73, 110, 117, 88, 105, 112, 77, 100, 107, 66, 121, 102, 81, 116, 97, 70, 111, 118, 85, 106, 113, 74, 101, 108, 89, 122, 103, 78, 117, 32, 45, 32, 45, 32, 45] { (built [.version 1, .priority 4]) with appname := (some [65, 104, 111, 80, 99, 106, 69, 120, 101, 84, 115, 122, 73, 110, 117, 88, 105, 112, 77, 100, 107, 66, 121, 102, 81, 116, 97, 70, 111, 118, 85, 106, 113, 74, 101, 108, 89, 122, 103, 78, 117]) } = true := by decide +kernel
/-- rfc5424/machine_test.go:1609 `<5>2 - - AhoPcjExeTszInuXipMdkByfQtaFovUjqJelYzgNub - - -` -/
example : valid5424 false [60, 53, 62, 50, 32, 45, 32, 45, 32, 65, 104, 111, 80, 99, 106, 69, 120, 101, 84, 115, 122, 73, 110, 117, 88, 105, 112, 77, 100, 107, 66, 121, 102, 81, 116, 97, 70, 111, 118, 85, 106, 113, 74, 101, 108, 89, 122, 103, 78, 117, 98, 32, 45, 32, 45, 32, 45] { (built [.version 2, .priority 5]) with appname := (some [65, 104, 111, 80, 99, 106, 69, 120, 101, 84, 115, 122, 73, 110, 117, 88, 105, 112, 77, 100, 107, 66, 121, 102, 81, 116, 97, 70, 111, 118, 85, 106, 113, 74, 101, 108, 89, 122, 103, 78, 117, 98]) } = true := by decide +kernel
/-- rfc5424/machine_test.go:1609 `<6>3 - - AhoPcjExeTszInuXipMdkByfQtaFovUjqJelYzgNubC - - -` -/
example : valid5424 false [60, 54, 62, 51, 32, 45, 32, 45, 32, 65, 104, 111, 80, 99, 106, 69, 120, 101, 84, 115, 122, 73, 110, 117, 88, 105, 112, 77, 100, 107, 66, 121, 102, 81, 116, 97, 70, 111, 118, 85, 106, 113, 74, 101, 108, 89, 122, 103, 78, 117, 98, 67, 32, 45, 32, 45, 32, 45] { (built [.version 3, .priority 6]) with appname := (some [65, 104, 111, 80, 99, 106, 69, 120, 101, 84, 115, 122, 73, 110, 117, 88, 105, 112, 77, 100, 107, 66, 121, 102, 81, 116, 97, 70, 111, 118, 85, 106, 113, 74, 101, 108, 89, 122, 103, 78, 117, 98, 67]) } = true := by decide +kernel
/-- rfc5424/machine_test.go:1609 `<7>4 - - AhoPcjExeTszInuXipMdkByfQtaFovUjqJelYzgNubCp - - -` -/
example : valid5424 false [60, 55, 62, 52, 32, 45, 32, 45, 32, 65, 104, 111, 80, 99, 106, 69, 120, 101, 84, 115, 122, 73, 110, 117, 88, 105, 112, 77, 100, 107, 66, 121, 102, 81, 116, 97, 70, 111, 118, 85, 106, 113, 74, 101, 108, 89, 122, 103, 78, 117, 98, 67, 112, 32, 45, 32, 45, 32, 45] { (built [.version 4, .priority 7]) with appname := (some [65, 104, 111, 80, 99, 106, 69, 120, 101, 84, 115, 122, 73, 110, 117, 88, 105, 112, 77, 100, 107, 66, 121, 102, 81, 116, 97, 70, 111, 118, 85, 106, 113, 74, 101, 108, 89, 122, 103, 78, 117, 98, 67, 112]) } = true := by decide +kernel
/-- rfc5424/machine_test.go:1609 `<8>5 - - AhoPcjExeTszInuXipMdkByfQtaFovUjqJelYzgNubCpw - - -` -/
example : valid5424 false [60, 56, 62, 53, 32, 45, 32, 45, 32, 65, 104, 111, 80, 99, 106, 69, 120, 101, 84, 115, 122, 73, 110, 117, 88, 105, 112, 77, 100, 107, 66, 121, 102, 81, 116, 97, 70, 111, 118, 85, 106, 113, 74, 101, 108, 89, 122, 103, 78, 117, 98, 67, 112, 119, 32, 45, 32, 45, 32, 45] { (built [.version 5, .priority 8]) with appname := (some [65, 104, 111, 80, 99, 106, 69, 120, 101, 84, 115, 122, 73, 110, 117, 88, 105, 112, 77, 100, 107, 66, 121, 102, 81, 116, 97, 70, 111, 118, 85, 106, 113, 74, 101, 108, 89, 122, 103, 78, 117, 98, 67, 112, 119]) } = true := by decide +kernel
/-- rfc5424/machine_test.go:1609 `<0>6 - - AhoPcjExeTszInuXipMdkByfQtaFovUjqJelYzgNubCpwR - - -` -/
example : valid5424 false [60, 48, 62, 54, 32, 45, 32, 45, 32, 65, 104, 111, 80, 99, 106, 69, 120, 101, 84, 115, 122, 73, 110, 117, 88, 105, 112, 77, 100, 107, 66, 121, 102, 81, 116, 97, 70, 111, 118, 85, 106, 113, 74, 101, 108, 89, 122, 103, 78, 117, 98, 67, 112, 119, 82, 32, 45, 32, 45, 32, 45] { (built [.version 6, .priority 0]) with appname := (some [65, 104, 111, 80, 99, 106, 69, 120, 101, 84, 115, 122, 73, 110, 117, 88, 105, 112, 77, 100, 107, 66, 121, 102, 81, 116, 97, 70, 111, 118, 85, 106, 113, 74, 101, 108, 89, 122, 103, 78, 117, 98, 67, 112, 119, 82]) } = true := by decide +kernel
/-- rfc5424/machine_test.go:1609 `<1>7 - - AhoPcjExeTszInuXipMdkByfQtaFovUjqJelYzgNubCpwRk - - -` -/
example : valid5424 false [60, 49, 62, 55, 32, 45, 32, 45, 32, 65, 104, 111, 80, 99, 106, 69, 120, 101, 84, 115, 122, 73, 110, 117, 88, 105, 112, 77, 100, 107, 66, 121, 102, 81, 116, 97, 70, 111, 118, 85, 106, 113, 74, 101, 108, 89, 122, 103, 78, 117, 98, 67, 112, 119, 82, 107, 32, 45, 32, 45, 32, 45] { (built [.version 7, .priority 1]) with appname := (some [65, 104, 111, 80, 99, 106, 69, 120, 101, 84, 115, 122, 73, 110, 117, 88, 105, 112, 77, 100, 107, 66, 121, 102, 81, 116, 97, 70, 111, 118, 85, 106, 113, 74, 101, 108, 89, 122, 103, 78, 117, 98, 67, 112, 119, 82, 107]) } = true := by decide +kernel
/-- rfc5424/machine_test.go:1609 `<2>8 - - AhoPcjExeTszInuXipMdkByfQtaFovUjqJelYzgNubCpwRkr - - -` -/
example : valid5424 false [60, 50, 62, 56, 32, 45, 32, 45, 32, 65, 104, 111, 80, 99, 106, 69, 120, 101, 84, 115, 122, 73, 110, 117, 88, 105, 112, 77, 100, 107, 66, 121, 102, 81, 116, 97, 70, 111, 118, 85, 106, 113, 74, 101, 108, 89, 122, 103, 78, 117, 98, 67, 112, 119, 82, 107, 114, 32, 45, 32, 45, 32, 45] { (built [.version 8, .priority 2]) with appname := (some [65, 104, 111, 80, 99, 106, 69, 120, 101, 84, 115, 122, 73, 110, 117, 88, 105, 112, 77, 100, 107, 66, 121, 102, 81, 116, 97, 70, 111, 118, 85, 106, 113, 74, 101, 108, 89, 122, 103, 78, 117, 98, 67, 112, 119, 82, 107, 114]) } = true := by decide +kernel
/-- rfc5424/machine_test.go:1609 `<0>1 - - - A - -` -/
example : valid5424 false [60, 48, 62, 49, 32, 45, 32, 45, 32, 45, 32, 65, 32, 45, 32, 45] { (built [.version 1, .priority 0]) with procID := (some [65]) } = true := by decide +kernel
/-- rfc5424/machine_test.go:1609 `<1>2 - - - Ah - -` -/
example : valid5424 false [60, 49, 62, 50, 32, 45, 32, 45, 32, 45, 32, 65, 104, 32, 45, 32, 45] { (built [.version 2, .priority 1]) with procID := (some [65, 104]) } = true := by decide +kernel
/-- rfc5424/machine_test.go:1609 `<2>3 - - - Aho - -` -/
example : valid5424 false [60, 50, 62, 51, 32, 45, 32, 45, 32, 45, 32, 65, 104, 111, 32, 45, 32, 45] { (built [.version 3, .priority 2]) with procID := (some [65, 104, 111]) } = true := by decide +kernel
/-- rfc5424/machine_test.go:1609 `<3>4 - - - AhoP - -` -/
example : valid5424 false [60, 51, 62, 52, 32, 45, 32, 45, 32, 45, 32, 65, 104, 111, 80, 32, 45, 32, 45] { (built [.version 4, .priority 3]) with procID := (some [65, 104, 111, 80]) } = true := by decide +kernel
/-- rfc5424/machine_test.go:1609 `<4>5 - - - AhoPc - -` -/
example : valid5424 false [60, 52, 62, 53, 32, 45, 32, 45, 32, 45, 32, 65, 104, 111, 80, 99, 32, 45, 32, 45] { (built [.version 5, .priority 4]) with procID := (some [65, 104, 111, 80, 99]) } = true := by decide +kernel
/-- rfc5424/machine_test.go:1609 `<5>6 - - - AhoPcj - -` -/
example : valid5424 false [60, 53, 62, 54, 32, 45, 32, 45, 32, 45, 32, 65, 104, 111, 80, 99, 106, 32, 45, 32, 45] { (built [.version 6, .priority 5]) with procID := (some [65, 104, 111, 80, 99, 106]) } = true := by decide +kernel
/-- rfc5424/machine_test.go:1609 `<6>7 - - - AhoPcjE - -` -/
example : valid5424 false [60, 54, 62, 55, 32, 45, 32, 45, 32, 45, 32, 65, 104, 111, 80, 99, 106, 69, 32, 45, 32, 45] { (built [.version 7, .priority 6]) with procID := (some [65, 104, 111, 80, 99, 106, 69]) } = true := by decide +kernel
/-- rfc5424/machine_test.go:1609 `<7>8 - - - AhoPcjEx - -` -/
example : valid5424 false [60, 55, 62, 56, 32, 45, 32, 45, 32, 45, 32, 65, 104, 111, 80, 99, 106, 69, 120, 32, 45, 32, 45] { (built [.version 8, .priority 7]) with procID := (some [65, 104, 111, 80, 99, 106, 69, 120]) } = true := by decide +kernel
/-- rfc5424/machine_test.go:1609 `<3>1 - - - AhoPcjExeTszInuXipMdkByfQtaFovUjqJelYzgNubCpwRkrGfmVahKvcZqxOlsDgnSbiHwdWryLmtAhoPcjExeTszInuXipMdkByfQtaFovUjqJelYzgNubC - -` -/
example : valid5424 false [60, 51, 62, 49, 32, 45, 32, 45, 32, 45, 32, 65, 104, 111, 80, 99, 106, 69, 120, 101, 84, 115, 122, 73, 110, 117, 88, 105, 112, 77, 100, 107, 66, 121, 102, 81, 116, 97, 70, 111, 118, 85, 106, 113, 74, 101, 108, 89, 122, 103, 78, 117, 98, 67, 112, 119, 82, 107, 114, 71, 102, 109, 86, 97, 104, 75, 118, 99, 90, 113, 120, 79, 108, 115, 68, 103, 110, 83, 98, 105, 72, 119, 100, 87, 114, 121, 76, 109, 116, 65, 104, 111, 80, 99, 106, 69, 120, 101, 84, 115, 122, 73, 110, 117, 88, 105, 112, 77, 100, 107, 66, 121, 102, 81, 116, 97, 70, 111, 118, 85, 106, 113, 74, 101, 108, 89, 122, 103, 78, 117, 98, 67, 32, 45, 32, 45] { (built [.version 1, .priority 3]) with procID := (some [65, 104, 111, 80, 99, 106, 69, 120, 101, 84, 115, 122, 73, 110, 117, 88, 105, 112, 77, 100, 107, 66, 121, 102, 81, 116, 97, 70, 111, 118, 85, 106, 113, 74, 101, 108, 89, 122, 103, 78, 117, 98, 67, 112, 119, 82, 107, 114, 71, 102, 109, 86, 97, 104, 75, 118, 99, 90, 113, 120, 79, 108, 115, 68, 103, 110, 83, 98, 105, 72, 119, 100, 87, 114, 121, 76, 109, 116, 65, 104, 111, 80, 99, 106, 69, 120, 101, 84, 115, 122, 73, 110, 117, 88, 105, 112, 77, 100, 107, 66, 121, 102, 81, 116, 97, 70, 111, 118, 85, 106, 113, 74, 101, 108, 89, 122, 103, 78, 117, 98, 67]) } = true := by decide +kernel
/-- rfc5424/machine_test.go:1609 `<4>2 - - - AhoPcjExeTszInuXipMdkByfQtaFovUjqJelYzgNubCpwRkrGfmVahKvcZqxOlsDgnSbiHwdWryLmtAhoPcjExeTszInuXipMdkByfQtaFovUjqJelYzgNubCp - -` -/
example : valid5424 false [60, 52, 62, 50, 32, 45, 32, 45, 32, 45, 32, 65, 104, 111, 80, 99, 106, 69, 120, 101, 84, 115, 122, 73, 110, 117, 88, 105, 112, 77, 100, 107, 66, 121, 102, 81, 116, 97, 70, 111, 118, 85, 106, 113, 74, 101, 108, 89, 122, 103, 78, 117, 98, 67, 112, 119, 82, 107, 114, 71, 102, 109, 86, 97, 104, 75, 118, 99, 90, 113, 120, 79, 108, 115, 68, 103, 110, 83, 98, 105, 72, 119, 100, 87, 114, 121, 76, 109, 116, 65, 104, 111, 80, 99, 106, 69, 120, 101, 84, 115, 122, 73, 110, 117, 88, 105, 112, 77, 100, 107, 66, 121, 102, 81, 116, 97, 70, 111, 118, 85, 106, 113, 74, 101, 108, 89, 122, 103, 78, 117, 98, 67, 112, 32, 45, 32, 45] { (built [.version 2, .priority 4]) with procID := (some [65, 104, 111, 80, 99, 106, 69, 120, 101, 84, 115, 122, 73, 110, 117, 88, 105, 112, 77, 100, 107, 66, 121, 102, 81, 116, 97, 70, 111, 118, 85, 106, 113, 74, 101, 108, 89, 122, 103, 78, 117, 98, 67, 112, 119, 82, 107, 114, 71, 102, 109, 86, 97, 104, 75, 118, 99, 90, 113, 120, 79, 108, 115, 68, 103, 110, 83, 98, 105, 72, 119, 100, 87, 114, 121, 76, 109, 116, 65, 104, 111, 80, 99, 106, 69, 120, 101, 84, 115, 122, 73, 110, 117, 88, 105, 112, 77, 100, 107, 66, 121, 102, 81, 116, 97, 70, 111, 118, 85, 106, 113, 74, 101, 108, 89, 122, 103, 78, 117, 98, 67, 112]) } = true := by decide +kernel

end Verif.Conformance
