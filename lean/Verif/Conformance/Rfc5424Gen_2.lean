import Verif.Conformance.Basic

/-!
# the generated cases of `TestMachineParse` (rfc5424/machine_test.go)

Written by `tools/conform.py`; do not edit. One `example` per test case of the repository, with the line of the case.
-/

namespace Verif.Conformance
open Verif.Builder (Call)

/-- rfc5424/machine_test.go:1609 `<6>2 - AhoPcjExeTszInuXipMdkByfQtaFovUjqJelYzgNubCpwRkrGfmVahKvcZqxOlsDgnSbiHwdWryLmtAhoPcjExeTszInuXipMdkByfQtaFovUjqJelYzgNubCpwRkrGfmVahKvcZqxOlsDgnSbiHwdWryLmtAhoPcjExeTszInuXipMdkByfQtaFovUjqJelYzgNubCpwRkrGfmVahKvcZqxOlsDgnSbiHwdWryLmtAhoPcjExeTszInuX - - - -` -/
example : valid5424 false [60, 54, 62, 50, 32, 45, 32, 65, 104, 111, 80, 99, 106, 69, 120, 101, 84, 115, 122, 73, 110, 117, 88, 105, 112, 77, 100, 107, 66, 121, 102, 81, 116, 97, 70, 111, 118, 85, 106, 113, 74, 101, 108, 89, 122, 103, 78, 117, 98, 67, 112, 119, 82, 107, 114, 71, 102, 109, 86, 97, 104, 75, 118, 99, 90, 113, 120, 79, 108, 115, 68, 103, 110, 83, 98, 105, 72, 119, 100, 87, 114, 121, 76, 109, 116, 65, 104, 111, 80, 99, 106, 69, 120, 101, 84, 115, 122, 73, 110, 117, 88, 105, 112, 77, 100, 107, 66, 121, 102, 81, 116, 97, 70, 111, 118, 85, 106, 113, 74, 101, 108, 89, 122, 103, 78, 117, 98, 67, 112, 119, 82, 107, 114, 71, 102, 109, 86, 97, 104, 75, 118, 99, 90, 113, 120, 79, 108, 115, 68, 103, 110, 83, 98, 105, 72, 119, 100, 87, 114, 121, 76, 109, 116, 65, 104, 111, 80, 99, 106, 69, 120, 101, 84, 115, 122, 73, 110, 117, 88, 105, 112, 77, 100, 107, 66, 121, 102, 81, 116, 97, 70, 111, 118, 85, 106, 113, 74, 101, 108, 89, 122, 103, 78, 117, 98, 67, 112, 119, 82, 107, 114, 71, 102, 109, 86, 97, 104, 75, 118, 99, 90, 113, 120, 79, 108, 115, 68, 103, 110, 83, 98, 105, 72, 119, 100, 87, 114, 121, 76, 109, 116, 65, 104, 111, 80, 99, 106, 69, 120, 101, 84, 115, 122, 73, 110, 117, 88, 32, 45, 32, 45, 32, 45, 32, 45] { (built [.version 2, .priority 6]) with hostname := (some [65, 104, 111, 80, 99, 106, 69, 120, 101, 84, 115, 122, 73, 110, 117, 88, 105, 112, 77, 100, 107, 66, 121, 102, 81, 116, 97, 70, 111, 118, 85, 106, 113, 74, 101, 108, 89, 122, 103, 78, 117, 98, 67, 112, 119, 82, 107, 114, 71, 102, 109, 86, 97, 104, 75, 118, 99, 90, 113, 120, 79, 108, 115, 68, 103, 110, 83, 98, 105, 72, 119, 100, 87, 114, 121, 76, 109, 116, 65, 104, 111, 80, 99, 106, 69, 120, 101, 84, 115, 122, 73, 110, 117, 88, 105, 112, 77, 100, 107, 66, 121, 102, 81, 116, 97, 70, 111, 118, 85, 106, 113, 74, 101, 108, 89, 122, 103, 78, 117, 98, 67, 112, 119, 82, 107, 114, 71, 102, 109, 86, 97, 104, 75, 118, 99, 90, 113, 120, 79, 108, 115, 68, 103, 110, 83, 98, 105, 72, 119, 100, 87, 114, 121, 76, 109, 116, 65, 104, 111, 80, 99, 106, 69, 120, 101, 84, 115, 122, 73, 110, 117, 88, 105, 112, 77, 100, 107, 66, 121, 102, 81, 116, 97, 70, 111, 118, 85, 106, 113, 74, 101, 108, 89, 122, 103, 78, 117, 98, 67, 112, 119, 82, 107, 114, 71, 102, 109, 86, 97, 104, 75, 118, 99, 90, 113, 120, 79, 108, 115, 68, 103, 110, 83, 98, 105, 72, 119, 100, 87, 114, 121, 76, 109, 116, 65, 104, 111, 80, 99, 106, 69, 120, 101, 84, 115, 122, 73, 110, 117, 88]) } = true := by decide +kernel
/-- rfc5424/machine_test.go:1609 `<7>3 - AhoPcjExeTszInuXipMdkByfQtaFovUjqJelYzgNubCpwRkrGfmVahKvcZqxOlsDgnSbiHwdWryLmtAhoPcjExeTszInuXipMdkByfQtaFovUjqJelYzgNubCpwRkrGfmVahKvcZqxOlsDgnSbiHwdWryLmtAhoPcjExeTszInuXipMdkByfQtaFovUjqJelYzgNubCpwRkrGfmVahKvcZqxOlsDgnSbiHwdWryLmtAhoPcjExeTszInuXi - - - -` -/
example : valid5424 false [60, 55, 62, 51, 32, 45, 32, 65, 104, 111, 80, 99, 106, 69, 120, 101, 84, 115, 122, 73, 110, 117, 88, 105, 112, 77, 100, 107, 66, 121, 102, 81, 116, 97, 70, 111, 118, 85, 106, 113, 74, 101, 108, 89, 122, 103, 78, 117, 98, 67, 112, 119, 82, 107, 114, 71, 102, 109, 86, 97, 104, 75, 118, 99, 90, 113, 120, 79, 108, 115, 68, 103, 110, 83, 98, 105, 72, 119, 100, 87, 114, 121, 76, 109, 116, 65, 104, 111, 80, 99, 106, 69, 120, 101, 84, 115, 122, 73, 110, 117, 88, 105, 112, 77, 100, 107, 66, 121, 102, 81, 116, 97, 70, 111, 118, 85, 106, 113, 74, 101, 108, 89, 122, 103, 78, 117, 98, 67, 112, 119, 82, 107, 114, 71, 102, 109, 86, 97, 104, 75, 118, 99, 90, 113, 120, 79, 108, 115, 68, 103, 110, 83, 98, 105, 72, 119, 100, 87, 114, 121, 76, 109, 116, 65, 104, 111, 80, 99, 106, 69, 120, 101, 84, 115, 122, 73, 110, 117, 88, 105, 112, 77, 100, 107, 66, 121, 102, 81, 116, 97, 70, 111, 118, 85, 106, 113, 74, 101, 108, 89, 122, 103, 78, 117, 98, 67, 112, 119, 82, 107, 114, 71, 102, 109, 86, 97, 104, 75, 118, 99, 90, 113, 120, 79, 108, 115, 68, 103, 110, 83, 98, 105, 72, 119, 100, 87, 114, 121, 76, 109, 116, 65, 104, 111, 80, 99, 106, 69, 120, 101, 84, 115, 122, 73, 110, 117, 88, 105, 32, 45, 32, 45, 32, 45, 32, 45] { (built [.version 3, .priority 7]) with hostname := (some [65, 104, 111, 80, 99, 106, 69, 120, 101, 84, 115, 122, 73, 110, 117, 88, 105, 112, 77, 100, 107, 66, 121, 102, 81, 116, 97, 70, 111, 118, 85, 106, 113, 74, 101, 108, 89, 122, 103, 78, 117, 98, 67, 112, 119, 82, 107, 114, 71, 102, 109, 86, 97, 104, 75, 118, 99, 90, 113, 120, 79, 108, 115, 68, 103, 110, 83, 98, 105, 72, 119, 100, 87, 114, 121, 76, 109, 116, 65, 104, 111, 80, 99, 106, 69, 120, 101, 84, 115, 122, 73, 110, 117, 88, 105, 112, 77, 100, 107, 66, 121, 102, 81, 116, 97, 70, 111, 118, 85, 106, 113, 74, 101, 108, 89, 122, 103, 78, 117, 98, 67, 112, 119, 82, 107, 114, 71, 102, 109, 86, 97, 104, 75, 118, 99, 90, 113, 120, 79, 108, 115, 68, 103, 110, 83, 98, 105, 72, 119, 100, 87, 114, 121, 76, 109, 116, 65, 104, 111, 80, 99, 106, 69, 120, 101, 84, 115, 122, 73, 110, 117, 88, 105, 112, 77, 100, 107, 66, 121, 102, 81, 116, 97, 70, 111, 118, 85, 106, 113, 74, 101, 108, 89, 122, 103, 78, 117, 98, 67, 112, 119, 82, 107, 114, 71, 102, 109, 86, 97, 104, 75, 118, 99, 90, 113, 120, 79, 108, 115, 68, 103, 110, 83, 98, 105, 72, 119, 100, 87, 114, 121, 76, 109, 116, 65, 104, 111, 80, 99, 106, 69, 120, 101, 84, 115, 122, 73, 110, 117, 88, 105]) } = true := by decide +kernel
/-- rfc5424/machine_test.go:1609 `<8>4 - AhoPcjExeTszInuXipMdkByfQtaFovUjqJelYzgNubCpwRkrGfmVahKvcZqxOlsDgnSbiHwdWryLmtAhoPcjExeTszInuXipMdkByfQtaFovUjqJelYzgNubCpwRkrGfmVahKvcZqxOlsDgnSbiHwdWryLmtAhoPcjExeTszInuXipMdkByfQtaFovUjqJelYzgNubCpwRkrGfmVahKvcZqxOlsDgnSbiHwdWryLmtAhoPcjExeTszInuXip - - - -` -/
example : valid5424 false [60, 56, 62, 52, 32, 45, 32, 65, 104, 111, 80, 99, 106, 69, 120, 101, 84, 115, 122, 73, 110, 117, 88, 105, 112, 77, 100, 107, 66, 121, 102, 81, 116, 97, 70, 111, 118, 85, 106, 113, 74, 101, 108, 89, 122, 103, 78, 117, 98, 67, 112, 119, 82, 107, 114, 71, 102, 109, 86, 97, 104, 75, 118, 99, 90, 113, 120, 79, 108, 115, 68, 103, 110, 83, 98, 105, 72, 119, 100, 87, 114, 121, 76, 109, 116, 65, 104, 111, 80, 99, 106, 69, 120, 101, 84, 115, 122, 73, 110, 117, 88, 105, 112, 77, 100, 107, 66, 121, 102, 81, 116, 97, 70, 111, 118, 85, 106, 113, 74, 101, 108, 89, 122, 103, 78, 117, 98, 67, 112, 119, 82, 107, 114, 71, 102, 109, 86, 97, 104, 75, 118, 99, 90, 113, 120, 79, 108, 115, 68, 103, 110, 83, 98, 105, 72, 119, 100, 87, 114, 121, 76, 109, 116, 65, 104, 111, 80, 99, 106, 69, 120, 101, 84, 115, 122, 73, 110, 117, 88, 105, 112, 77, 100, 107, 66, 121, 102, 81, 116, 97, 70, 111, 118, 85, 106, 113, 74, 101, 108, 89, 122, 103, 78, 117, 98, 67, 112, 119, 82, 107, 114, 71, 102, 109, 86, 97, 104, 75, 118, 99, 90, 113, 120, 79, 108, 115, 68, 103, 110, 83, 98, 105, 72, 119, 100, 87, 114, 121, 76, 109, 116, 65, 104, 111, 80, 99, 106, 69, 120, 101, 84, 115, 122, 73, 110, 117, 88, 105, 112, 32, 45, 32, 45, 32, 45, 32, 45] { (built [.version 4, .priority 8]) with hostname := (some [65, 104, 111, 80, 99, 106, 69, 120, 101, 84, 115, 122, 73, 110, 117, 88, 105, 112, 77, 100, 107, 66, 121, 102, 81, 116, 97, 70, 111, 118, 85, 106, 113, 74, 101, 108, 89, 122, 103, 78, 117, 98, 67, 112, 119, 82, 107, 114, 71, 102, 109, 86, 97, 104, 75, 118, 99, 90, 113, 120, 79, 108, 115, 68, 103, 110, 83, 98, 105, 72, 119, 100, 87, 114, 121, 76, 109, 116, 65, 104, 111, 80, 99, 106, 69, 120, 101, 84, 115, 122, 73, 110, 117, 88, 105, 112, 77, 100, 107, 66, 121, 102, 81, 116, 97, 70, 111, 118, 85, 106, 113, 74, 101, 108, 89, 122, 103, 78, 117, 98, 67, 112, 119, 82, 107, 114, 71, 102, 109, 86, 97, 104, 75, 118, 99, 90, 113, 120, 79, 108, 115, 68, 103, 110, 83, 98, 105, 72, 119, 100, 87, 114, 121, 76, 109, 116, 65, 104, 111, 80, 99, 106, 69, 120, 101, 84, 115, 122, 73, 110, 117, 88, 105, 112, 77, 100, 107, 66, 121, 102, 81, 116, 97, 70, 111, 118, 85, 106, 113, 74, 101, 108, 89, 122, 103, 78, 117, 98, 67, 112, 119, 82, 107, 114, 71, 102, 109, 86, 97, 104, 75, 118, 99, 90, 113, 120, 79, 108, 115, 68, 103, 110, 83, 98, 105, 72, 119, 100, 87, 114, 121, 76, 109, 116, 65, 104, 111, 80, 99, 106, 69, 120, 101, 84, 115, 122, 73, 110, 117, 88, 105, 112]) } = true := by decide +kernel
/-- rfc5424/machine_test.go:1609 `<0>5 - AhoPcjExeTszInuXipMdkByfQtaFovUjqJelYzgNubCpwRkrGfmVahKvcZqxOlsDgnSbiHwdWryLmtAhoPcjExeTszInuXipMdkByfQtaFovUjqJelYzgNubCpwRkrGfmVahKvcZqxOlsDgnSbiHwdWryLmtAhoPcjExeTszInuXipMdkByfQtaFovUjqJelYzgNubCpwRkrGfmVahKvcZqxOlsDgnSbiHwdWryLmtAhoPcjExeTszInuXipM - - - -` -/
example : valid5424 false [60, 48, 62, 53, 32, 45, 32, 65, 104, 111, 80, 99, 106, 69, 120, 101, 84, 115, 122, 73, 110, 117, 88, 105, 112, 77, 100, 107, 66, 121, 102, 81, 116, 97, 70, 111, 118, 85, 106, 113, 74, 101, 108, 89, 122, 103, 78, 117, 98, 67, 112, 119, 82, 107, 114, 71, 102, 109, 86, 97, 104, 75, 118, 99, 90, 113, 120, 79, 108, 115, 68, 103, 110, 83, 98, 105, 72, 119, 100, 87, 114, 121, 76, 109, 116, 65, 104, 111, 80, 99, 106, 69, 120, 101, 84, 115, 122, 73, 110, 117, 88, 105, 112, 77, 100, 107, 66, 121, 102, 81, 116, 97, 70, 111, 118, 85, 106, 113, 74, 101, 108, 89, 122, 103, 78, 117, 98, 67, 112, 119, 82, 107, 114, 71, 102, 109, 86, 97, 104, 75, 118, 99, 90, 113, 120, 79, 108, 115, 68, 103, 110, 83, 98, 105, 72, 119, 100, 87, 114, 121, 76, 109, 116, 65, 104, 111, 80, 99, 106, 69, 120, 101, 84, 115, 122, 73, 110, 117, 88, 105, 112, 77, 100, 107, 66, 121, 102, 81, 116, 97, 70, 111, 118, 85, 106, 113, 74, 101, 108, 89, 122, 103, 78, 117, 98, 67, 112, 119, 82, 107, 114, 71, 102, 109, 86, 97, 104, 75, 118, 99, 90, 113, 120, 79, 108, 115, 68, 103, 110, 83, 98, 105, 72, 119, 100, 87, 114, 121, 76, 109, 116, 65, 104, 111, 80, 99, 106, 69, 120, 101, 84, 115, 122, 73, 110, 117, 88, 105, 112, 77, 32, 45, 32, 45, 32, 45, 32, 45] { (built [.version 5, .priority 0]) with hostname := (some [65, 104, 111, 80, 99, 106, 69, 120, 101, 84, 115, 122, 73, 110, 117, 88, 105, 112, 77, 100, 107, 66, 121, 102, 81, 116, 97, 70, 111, 118, 85, 106, 113, 74, 101, 108, 89, 122, 103, 78, 117, 98, 67, 112, 119, 82, 107, 114, 71, 102, 109, 86, 97, 104, 75, 118, 99, 90, 113, 120, 79, 108, 115, 68, 103, 110, 83, 98, 105, 72, 119, 100, 87, 114, 121, 76, 109, 116, 65, 104, 111, 80, 99, 106, 69, 120, 101, 84, 115, 122, 73, 110, 117, 88, 105, 112, 77, 100, 107, 66, 121, 102, 81, 116, 97, 70, 111, 118, 85, 106, 113, 74, 101, 108, 89, 122, 103, 78, 117, 98, 67, 112, 119, 82, 107, 114, 71, 102, 109, 86, 97, 104, 75, 118, 99, 90, 113, 120, 79, 108, 115, 68, 103, 110, 83, 98, 105, 72, 119, 100, 87, 114, 121, 76, 109, 116, 65, 104, 111, 80, 99, 106, 69, 120, 101, 84, 115, 122, 73, 110, 117, 88, 105, 112, 77, 100, 107, 66, 121, 102, 81, 116, 97, 70, 111, 118, 85, 106, 113, 74, 101, 108, 89, 122, 103, 78, 117, 98, 67, 112, 119, 82, 107, 114, 71, 102, 109, 86, 97, 104, 75, 118, 99, 90, 113, 120, 79, 108, 115, 68, 103, 110, 83, 98, 105, 72, 119, 100, 87, 114, 121, 76, 109, 116, 65, 104, 111, 80, 99, 106, 69, 120, 101, 84, 115, 122, 73, 110, 117, 88, 105, 112, 77]) } = true := by decide +kernel
/-- rfc5424/machine_test.go:1609 `<1>6 - AhoPcjExeTszInuXipMdkByfQtaFovUjqJelYzgNubCpwRkrGfmVahKvcZqxOlsDgnSbiHwdWryLmtAhoPcjExeTszInuXipMdkByfQtaFovUjqJelYzgNubCpwRkrGfmVahKvcZqxOlsDgnSbiHwdWryLmtAhoPcjExeTszInuXipMdkByfQtaFovUjqJelYzgNubCpwRkrGfmVahKvcZqxOlsDgnSbiHwdWryLmtAhoPcjExeTszInuXipMd - - - -` -/
example : valid5424 false [60, 49, 62, 54, 32, 45, 32, 65, 104, 111, 80, 99, 106, 69, 120, 101, 84, 115, 122, 73, 110, 117, 88, 105, 112, 77, 100, 107, 66, 121, 102, 81, 116, 97, 70, 111, 118, 85, 106, 113, 74, 101, 108, 89, 122, 103, 78, 117, 98, 67, 112, 119, 82, 107, 114, 71, 102, 109, 86, 97, 104, 75, 118, 99, 90, 113, 120, 79, 108, 115, 68, 103, 110, 83, 98, 105, 72, 119, 100, 87, 114, 121, 76, 109, 116, 65, 104, 111, 80, 99, 106, 69, 120, 101, 84, 115, 122, 73, 110, 117, 88, 105, 112, 77, 100, 107, 66, 121, 102, 81, 116, 97, 70, 111, 118, 85, 106, 113, 74, 101, 108, 89, 122, 103, 78, 117, 98, 67, 112, 119, 82, 107, 114, 71, 102, 109, 86, 97, 104, 75, 118, 99, 90, 113, 120, 79, 108, 115, 68, 103, 110, 83, 98, 105, 72, 119, 100, 87, 114, 121, 76, 109, 116, 65, 104, 111, 80, 99, 106, 69, 120, 101, 84, 115, 122, 73, 110, 117, 88, 105, 112, 77, 100, 107, 66, 121, 102, 81, 116, 97, 70, 111, 118, 85, 106, 113, 74, 101, 108, 89, 122, 103, 78, 117, 98, 67, 112, 119, 82, 107, 114, 71, 102, 109, 86, 97, 104, 75, 118, 99, 90, 113, 120, 79, 108, 115, 68, 103, 110, 83, 98, 105, 72, 119, 100, 87, 114, 121, 76, 109, 116, 65, 104, 111, 80, 99, 106, 69, 120, 101, 84, 115, 122, 73, 110, 117, 88, 105, 112, 77, 100, 32, 45, 32, 45, 32, 45, 32, 45] { (built [.version 6, .priority 1]) with hostname := (some [65, 104, 111, 80, 99, 106, 69, 120, 101, 84, 115, 122, 73, 110, 117, 88, 105, 112, 77, 100, 107, 66, 121, 102, 81, 116, 97, 70, 111, 118, 85, 106, 113, 74, 101, 108, 89, 122, 103, 78, 117, 98, 67, 112, 119, 82, 107, 114, 71, 102, 109, 86, 97, 104, 75, 118, 99, 90, 113, 120, 79, 108, 115, 68, 103, 110, 83, 98, 105, 72, 119, 100, 87, 114, 121, 76, 109, 116, 65, 104, 111, 80, 99, 106, 69, 120, 101, 84, 115, 122, 73, 110, 117, 88, 105, 112, 77, 100, 107, 66, 121, 102, 81, 116, 97, 70, 111, 118, 85, 106, 113, 74, 101, 108, 89, 122, 103, 78, 117, 98, 67, 112, 119, 82, 107, 114, 71, 102, 109, 86, 97, 104, 75, 118, 99, 90, 113, 120, 79, 108, 115, 68, 103, 110, 83, 98, 105, 72, 119, 100, 87, 114, 121, 76, 109, 116, 65, 104, 111, 80, 99, 106, 69, 120, 101, 84, 115, 122, 73, 110, 117, 88, 105, 112, 77, 100, 107, 66, 121, 102, 81, 116, 97, 70, 111, 118, 85, 106, 113, 74, 101, 108, 89, 122, 103, 78, 117, 98, 67, 112, 119, 82, 107, 114, 71, 102, 109, 86, 97, 104, 75, 118, 99, 90, 113, 120, 79, 108, 115, 68, 103, 110, 83, 98, 105, 72, 119, 100, 87, 114, 121, 76, 109, 116, 65, 104, 111, 80, 99, 106, 69, 120, 101, 84, 115, 122, 73, 110, 117, 88, 105, 112, 77, 100]) } = true := by decide +kernel

end Verif.Conformance
