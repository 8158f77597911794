import Verif.Conformance.Basic

/-!
# `TestMachineParseWithCompliantMsgOn`, `TestMachineParseWithCompliantMsgOff` (rfc5424/machine_test.go)

Written by `tools/conform.py`; do not edit. One `example` per test case of the repository, with the line of the case.
-/

namespace Verif.Conformance
open Verif.Builder (Call)

/-- rfc5424/machine_test.go:1447 `<1>1 - - - - - - \xef\xbb\xbf\xf8\x80\x80\x80\xaf` -/
example : invalid5424 true [60, 49, 62, 49, 32, 45, 32, 45, 32, 45, 32, 45, 32, 45, 32, 45, 32, 239, 187, 191, 248, 128, 128, 128, 175] ⟨.msgNotCompliant, 20⟩ (some { (built [.version 1, .priority 1]) with message := (some [239, 187, 191]) }) = true := by decide +kernel
/-- rfc5424/machine_test.go:1454 `<1>3 - - - - - - \xef\xbb\xbf\xf0\x80\x80\xaf` -/
example : invalid5424 true [60, 49, 62, 51, 32, 45, 32, 45, 32, 45, 32, 45, 32, 45, 32, 45, 32, 239, 187, 191, 240, 128, 128, 175] ⟨.msgNotCompliant, 21⟩ (some { (built [.version 3, .priority 1]) with message := (some [239, 187, 191, 240]) }) = true := by decide +kernel
/-- rfc5424/machine_test.go:1461 `<1>3 - - - - - - \xef\xbb\xbf\xe0\x80\xaf` -/
example : invalid5424 true [60, 49, 62, 51, 32, 45, 32, 45, 32, 45, 32, 45, 32, 45, 32, 45, 32, 239, 187, 191, 224, 128, 175] ⟨.msgNotCompliant, 21⟩ (some { (built [.version 3, .priority 1]) with message := (some [239, 187, 191, 224]) }) = true := by decide +kernel
/-- rfc5424/machine_test.go:1468 `<1>1 - - - - - - \xef\xbb\xbf\xc0\xaf` -/
example : invalid5424 true [60, 49, 62, 49, 32, 45, 32, 45, 32, 45, 32, 45, 32, 45, 32, 45, 32, 239, 187, 191, 192, 175] ⟨.msgNotCompliant, 20⟩ (some { (built [.version 1, .priority 1]) with message := (some [239, 187, 191]) }) = true := by decide +kernel
/-- rfc5424/machine_test.go:1476 `<1>1 - - - - - - \xef\xbb\xbf\xfc\x83\xbf\xbf\xbf\xbf` -/
example : invalid5424 true [60, 49, 62, 49, 32, 45, 32, 45, 32, 45, 32, 45, 32, 45, 32, 45, 32, 239, 187, 191, 252, 131, 191, 191, 191, 191] ⟨.msgNotCompliant, 20⟩ (some { (built [.version 1, .priority 1]) with message := (some [239, 187, 191]) }) = true := by decide +kernel
/-- rfc5424/machine_test.go:1483 `<1>1 - - - - - - \xef\xbb\xbf\xf8\x87\xbf\xbf\xbf` -/
example : invalid5424 true [60, 49, 62, 49, 32, 45, 32, 45, 32, 45, 32, 45, 32, 45, 32, 45, 32, 239, 187, 191, 248, 135, 191, 191, 191] ⟨.msgNotCompliant, 20⟩ (some { (built [.version 1, .priority 1]) with message := (some [239, 187, 191]) }) = true := by decide +kernel
/-- rfc5424/machine_test.go:1490 `<1>1 - - - - - - \xef\xbb\xbf\xf0\x8f\xbf\xbf` -/
example : invalid5424 true [60, 49, 62, 49, 32, 45, 32, 45, 32, 45, 32, 45, 32, 45, 32, 45, 32, 239, 187, 191, 240, 143, 191, 191] ⟨.msgNotCompliant, 21⟩ (some { (built [.version 1, .priority 1]) with message := (some [239, 187, 191, 240]) }) = true := by decide +kernel
/-- rfc5424/machine_test.go:1497 `<1>1 - - - - - - \xef\xbb\xbf\xe0\x9f\xbf` -/
example : invalid5424 true [60, 49, 62, 49, 32, 45, 32, 45, 32, 45, 32, 45, 32, 45, 32, 45, 32, 239, 187, 191, 224, 159, 191] ⟨.msgNotCompliant, 21⟩ (some { (built [.version 1, .priority 1]) with message := (some [239, 187, 191, 224]) }) = true := by decide +kernel
/-- rfc5424/machine_test.go:1504 `<1>1 - - - - - - \xef\xbb\xbf\xc1\xbf` -/
example : invalid5424 true [60, 49, 62, 49, 32, 45, 32, 45, 32, 45, 32, 45, 32, 45, 32, 45, 32, 239, 187, 191, 193, 191] ⟨.msgNotCompliant, 20⟩ (some { (built [.version 1, .priority 1]) with message := (some [239, 187, 191]) }) = true := by decide +kernel
/-- rfc5424/machine_test.go:1512 `<1>1 - - - - - - \xef\xbb\xbf\xed\xa0\x80` -/
example : invalid5424 true [60, 49, 62, 49, 32, 45, 32, 45, 32, 45, 32, 45, 32, 45, 32, 45, 32, 239, 187, 191, 237, 160, 128] ⟨.msgNotCompliant, 21⟩ (some { (built [.version 1, .priority 1]) with message := (some [239, 187, 191, 237]) }) = true := by decide +kernel
/-- rfc5424/machine_test.go:1519 `<1>1 - - - - - - \xef\xbb\xbf\xed\xa0\x80` -/
example : invalid5424 true [60, 49, 62, 49, 32, 45, 32, 45, 32, 45, 32, 45, 32, 45, 32, 45, 32, 239, 187, 191, 237, 160, 128] ⟨.msgNotCompliant, 21⟩ (some { (built [.version 1, .priority 1]) with message := (some [239, 187, 191, 237]) }) = true := by decide +kernel
/-- rfc5424/machine_test.go:1526 `<1>1 - - - - - - \xef\xbb\xbf\xed\xad\xbf` -/
example : invalid5424 true [60, 49, 62, 49, 32, 45, 32, 45, 32, 45, 32, 45, 32, 45, 32, 45, 32, 239, 187, 191, 237, 173, 191] ⟨.msgNotCompliant, 21⟩ (some { (built [.version 1, .priority 1]) with message := (some [239, 187, 191, 237]) }) = true := by decide +kernel
/-- rfc5424/machine_test.go:1533 `<1>1 - - - - - - \xef\xbb\xbf\xed\xae\x80` -/
example : invalid5424 true [60, 49, 62, 49, 32, 45, 32, 45, 32, 45, 32, 45, 32, 45, 32, 45, 32, 239, 187, 191, 237, 174, 128] ⟨.msgNotCompliant, 21⟩ (some { (built [.version 1, .priority 1]) with message := (some [239, 187, 191, 237]) }) = true := by decide +kernel
/-- rfc5424/machine_test.go:1540 `<22>23 - - - - - - \xef\xbb\xbf\xed\xaf\xbf` -/
example : invalid5424 true [60, 50, 50, 62, 50, 51, 32, 45, 32, 45, 32, 45, 32, 45, 32, 45, 32, 45, 32, 239, 187, 191, 237, 175, 191] ⟨.msgNotCompliant, 23⟩ (some { (built [.version 23, .priority 22]) with message := (some [239, 187, 191, 237]) }) = true := by decide +kernel
/-- rfc5424/machine_test.go:1547 `<1>1 - - - - - - \xef\xbb\xbf\xed\xb0\x80` -/
example : invalid5424 true [60, 49, 62, 49, 32, 45, 32, 45, 32, 45, 32, 45, 32, 45, 32, 45, 32, 239, 187, 191, 237, 176, 128] ⟨.msgNotCompliant, 21⟩ (some { (built [.version 1, .priority 1]) with message := (some [239, 187, 191, 237]) }) = true := by decide +kernel
/-- rfc5424/machine_test.go:1554 `<1>1 - - - - - - \xef\xbb\xbf\xed\xbe\x80` -/
example : invalid5424 true [60, 49, 62, 49, 32, 45, 32, 45, 32, 45, 32, 45, 32, 45, 32, 45, 32, 239, 187, 191, 237, 190, 128] ⟨.msgNotCompliant, 21⟩ (some { (built [.version 1, .priority 1]) with message := (some [239, 187, 191, 237]) }) = true := by decide +kernel
/-- rfc5424/machine_test.go:1561 `<1>1 - - - - - - \xef\xbb\xbf\xed\xbf\xbf` -/
example : invalid5424 true [60, 49, 62, 49, 32, 45, 32, 45, 32, 45, 32, 45, 32, 45, 32, 45, 32, 239, 187, 191, 237, 191, 191] ⟨.msgNotCompliant, 21⟩ (some { (built [.version 1, .priority 1]) with message := (some [239, 187, 191, 237]) }) = true := by decide +kernel
/-- rfc5424/machine_test.go:1569 `<1>1 - - - - - - \xef\xbb\xbf\xed\xa0\x80\xed\xb0\x80` -/
example : invalid5424 true [60, 49, 62, 49, 32, 45, 32, 45, 32, 45, 32, 45, 32, 45, 32, 45, 32, 239, 187, 191, 237, 160, 128, 237, 176, 128] ⟨.msgNotCompliant, 21⟩ (some { (built [.version 1, .priority 1]) with message := (some [239, 187, 191, 237]) }) = true := by decide +kernel
/-- rfc5424/machine_test.go:1361 -/
example : accepted5424 [60, 49, 62, 49, 32, 45, 32, 45, 32, 45, 32, 45, 32, 45, 32, 45, 32, 239, 187, 191, 193] = true := by decide +kernel
/-- rfc5424/machine_test.go:1368 -/
example : accepted5424 [60, 49, 62, 52, 32, 45, 32, 45, 32, 45, 32, 45, 32, 45, 32, 45, 32, 239, 187, 191, 195, 40] = true := by decide +kernel
/-- rfc5424/machine_test.go:1375 -/
example : accepted5424 [60, 55, 62, 49, 32, 45, 32, 45, 32, 45, 32, 45, 32, 45, 32, 45, 32, 239, 187, 191, 160, 161] = true := by decide +kernel
/-- rfc5424/machine_test.go:1382 -/
example : accepted5424 [60, 49, 62, 49, 32, 45, 32, 45, 32, 45, 32, 45, 32, 45, 32, 45, 32, 239, 187, 191, 226, 40, 161] = true := by decide +kernel
/-- rfc5424/machine_test.go:1389 -/
example : accepted5424 [60, 54, 62, 49, 32, 45, 32, 45, 32, 45, 32, 45, 32, 45, 32, 45, 32, 239, 187, 191, 226, 130, 40] = true := by decide +kernel
/-- rfc5424/machine_test.go:1396 -/
example : accepted5424 [60, 49, 62, 49, 32, 45, 32, 45, 32, 45, 32, 45, 32, 45, 32, 45, 32, 239, 187, 191, 240, 40, 140, 188] = true := by decide +kernel
/-- rfc5424/machine_test.go:1403 -/
example : accepted5424 [60, 49, 62, 49, 32, 45, 32, 45, 32, 45, 32, 45, 32, 45, 32, 45, 32, 239, 187, 191, 240, 144, 40, 188] = true := by decide +kernel
/-- rfc5424/machine_test.go:1410 -/
example : accepted5424 [60, 49, 62, 49, 32, 45, 32, 45, 32, 45, 32, 45, 32, 45, 32, 45, 32, 239, 187, 191, 240, 40, 140, 40] = true := by decide +kernel
/-- rfc5424/machine_test.go:1418 -/
example : accepted5424 [60, 49, 62, 49, 32, 45, 32, 45, 32, 45, 32, 45, 32, 45, 32, 45, 32, 239, 187, 191, 254, 254, 255, 255] = true := by decide +kernel
/-- rfc5424/machine_test.go:1425 -/
example : accepted5424 [60, 49, 62, 49, 32, 45, 32, 45, 32, 45, 32, 45, 32, 45, 32, 45, 32, 239, 187, 191, 254] = true := by decide +kernel
/-- rfc5424/machine_test.go:1432 -/
example : accepted5424 [60, 49, 62, 49, 32, 45, 32, 45, 32, 45, 32, 45, 32, 45, 32, 45, 32, 239, 187, 191, 255] = true := by decide +kernel
/-- rfc5424/machine_test.go:1440 -/
example : accepted5424 [60, 49, 62, 49, 32, 45, 32, 45, 32, 45, 32, 45, 32, 45, 32, 45, 32, 239, 187, 191, 252, 128, 128, 128, 128, 175] = true := by decide +kernel
/-- rfc5424/machine_test.go:1447 -/
example : accepted5424 [60, 49, 62, 49, 32, 45, 32, 45, 32, 45, 32, 45, 32, 45, 32, 45, 32, 239, 187, 191, 248, 128, 128, 128, 175] = true := by decide +kernel
/-- rfc5424/machine_test.go:1454 -/
example : accepted5424 [60, 49, 62, 51, 32, 45, 32, 45, 32, 45, 32, 45, 32, 45, 32, 45, 32, 239, 187, 191, 240, 128, 128, 175] = true := by decide +kernel
/-- rfc5424/machine_test.go:1461 -/
example : accepted5424 [60, 49, 62, 51, 32, 45, 32, 45, 32, 45, 32, 45, 32, 45, 32, 45, 32, 239, 187, 191, 224, 128, 175] = true := by decide +kernel
/-- rfc5424/machine_test.go:1468 -/
example : accepted5424 [60, 49, 62, 49, 32, 45, 32, 45, 32, 45, 32, 45, 32, 45, 32, 45, 32, 239, 187, 191, 192, 175] = true := by decide +kernel
/-- rfc5424/machine_test.go:1476 -/
example : accepted5424 [60, 49, 62, 49, 32, 45, 32, 45, 32, 45, 32, 45, 32, 45, 32, 45, 32, 239, 187, 191, 252, 131, 191, 191, 191, 191] = true := by decide +kernel
/-- rfc5424/machine_test.go:1483 -/
example : accepted5424 [60, 49, 62, 49, 32, 45, 32, 45, 32, 45, 32, 45, 32, 45, 32, 45, 32, 239, 187, 191, 248, 135, 191, 191, 191] = true := by decide +kernel
/-- rfc5424/machine_test.go:1490 -/
example : accepted5424 [60, 49, 62, 49, 32, 45, 32, 45, 32, 45, 32, 45, 32, 45, 32, 45, 32, 239, 187, 191, 240, 143, 191, 191] = true := by decide +kernel
/-- rfc5424/machine_test.go:1497 -/
example : accepted5424 [60, 49, 62, 49, 32, 45, 32, 45, 32, 45, 32, 45, 32, 45, 32, 45, 32, 239, 187, 191, 224, 159, 191] = true := by decide +kernel
/-- rfc5424/machine_test.go:1504 -/
example : accepted5424 [60, 49, 62, 49, 32, 45, 32, 45, 32, 45, 32, 45, 32, 45, 32, 45, 32, 239, 187, 191, 193, 191] = true := by decide +kernel
/-- rfc5424/machine_test.go:1512 -/
example : accepted5424 [60, 49, 62, 49, 32, 45, 32, 45, 32, 45, 32, 45, 32, 45, 32, 45, 32, 239, 187, 191, 237, 160, 128] = true := by decide +kernel
/-- rfc5424/machine_test.go:1519 -/
example : accepted5424 [60, 49, 62, 49, 32, 45, 32, 45, 32, 45, 32, 45, 32, 45, 32, 45, 32, 239, 187, 191, 237, 160, 128] = true := by decide +kernel
/-- rfc5424/machine_test.go:1526 -/
example : accepted5424 [60, 49, 62, 49, 32, 45, 32, 45, 32, 45, 32, 45, 32, 45, 32, 45, 32, 239, 187, 191, 237, 173, 191] = true := by decide +kernel
/-- rfc5424/machine_test.go:1533 -/
example : accepted5424 [60, 49, 62, 49, 32, 45, 32, 45, 32, 45, 32, 45, 32, 45, 32, 45, 32, 239, 187, 191, 237, 174, 128] = true := by decide +kernel
/-- rfc5424/machine_test.go:1540 -/
example : accepted5424 [60, 50, 50, 62, 50, 51, 32, 45, 32, 45, 32, 45, 32, 45, 32, 45, 32, 45, 32, 239, 187, 191, 237, 175, 191] = true := by decide +kernel
/-- rfc5424/machine_test.go:1547 -/
example : accepted5424 [60, 49, 62, 49, 32, 45, 32, 45, 32, 45, 32, 45, 32, 45, 32, 45, 32, 239, 187, 191, 237, 176, 128] = true := by decide +kernel
/-- rfc5424/machine_test.go:1554 -/
example : accepted5424 [60, 49, 62, 49, 32, 45, 32, 45, 32, 45, 32, 45, 32, 45, 32, 45, 32, 239, 187, 191, 237, 190, 128] = true := by decide +kernel
/-- rfc5424/machine_test.go:1561 -/
example : accepted5424 [60, 49, 62, 49, 32, 45, 32, 45, 32, 45, 32, 45, 32, 45, 32, 45, 32, 239, 187, 191, 237, 191, 191] = true := by decide +kernel
/-- rfc5424/machine_test.go:1569 -/
example : accepted5424 [60, 49, 62, 49, 32, 45, 32, 45, 32, 45, 32, 45, 32, 45, 32, 45, 32, 239, 187, 191, 237, 160, 128, 237, 176, 128] = true := by decide +kernel
/-- rfc5424/machine_test.go: TestMachineParseWithCompliantMsgWhenMessageStartsWithBOM -/
example : invalid5424 true [60, 49, 62, 49, 32, 45, 32, 45, 32, 45, 32, 45, 32, 45, 32, 45, 32, 239, 187, 191, 99, 104, 228, 228, 115] ⟨.msgNotCompliant, 23⟩ (some { (built [.version 1, .priority 1]) with message := (some [239, 187, 191, 99, 104, 228]) }) = true := by decide +kernel

end Verif.Conformance
