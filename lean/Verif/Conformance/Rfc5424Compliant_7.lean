import Verif.Conformance.Basic

/-!
# `TestMachineParseWithCompliantMsgOn`, `TestMachineParseWithCompliantMsgOff` (rfc5424/machine_test.go)

Written by `tools/conform.py`; do not edit. One `example` per test case of the repository, with the line of the case.
-/

namespace Verif.Conformance
open Verif.Builder (Call)

/-- rfc5424/machine_test.go:1234 `<1>1 - - - - - - \xef\xbb\xbf\xd7\x90\xd7\x99\xd7\x9a \xd7\xa7\xd7\xa2\xd7\x9f \xd7\xa2\xd7\xa1\xd7\x9f \xd7\x92\xd7\x9c\xd7\x90\xd6\xb8\xd7\x96 \xd7\x90\xd7\x95\xd7\x9f \xd7\xa2\xd7\xa1 \xd7\x98\xd7\x95\xd7\x98 \xd7\x9e\xd7\x99\xd7\xa8 \xd7\xa0\xd7\x99\xd7\xa9\xd7\x98 \xd7\xb0\xd7\xb2.` -/
example : valid5424 true [60, 49, 62, 49, 32, 45, 32, 45, 32, 45, 32, 45, 32, 45, 32, 45, 32, 239, 187, 191, 215, 144, 215, 153, 215, 154, 32, 215, 167, 215, 162, 215, 159, 32, 215, 162, 215, 161, 215, 159, 32, 215, 146, 215, 156, 215, 144, 214, 184, 215, 150, 32, 215, 144, 215, 149, 215, 159, 32, 215, 162, 215, 161, 32, 215, 152, 215, 149, 215, 152, 32, 215, 158, 215, 153, 215, 168, 32, 215, 160, 215, 153, 215, 169, 215, 152, 32, 215, 176, 215, 178, 46] (built [.version 1, .message [239, 187, 191, 215, 144, 215, 153, 215, 154, 32, 215, 167, 215, 162, 215, 159, 32, 215, 162, 215, 161, 215, 159, 32, 215, 146, 215, 156, 215, 144, 214, 184, 215, 150, 32, 215, 144, 215, 149, 215, 159, 32, 215, 162, 215, 161, 32, 215, 152, 215, 149, 215, 152, 32, 215, 158, 215, 153, 215, 168, 32, 215, 160, 215, 153, 215, 169, 215, 152, 32, 215, 176, 215, 178, 46], .priority 1]) = true := by decide +kernel
/-- rfc5424/machine_test.go:1242 `<1>1 - - - - - - \xef\xbb\xbfMog\xc4\x99 je\xc5\x9b\xc4\x87 szk\xc5\x82o, i mi nie szkodzi.` -/
example : valid5424 true [60, 49, 62, 49, 32, 45, 32, 45, 32, 45, 32, 45, 32, 45, 32, 45, 32, 239, 187, 191, 77, 111, 103, 196, 153, 32, 106, 101, 197, 155, 196, 135, 32, 115, 122, 107, 197, 130, 111, 44, 32, 105, 32, 109, 105, 32, 110, 105, 101, 32, 115, 122, 107, 111, 100, 122, 105, 46] (built [.version 1, .message [239, 187, 191, 77, 111, 103, 196, 153, 32, 106, 101, 197, 155, 196, 135, 32, 115, 122, 107, 197, 130, 111, 44, 32, 105, 32, 109, 105, 32, 110, 105, 101, 32, 115, 122, 107, 111, 100, 122, 105, 46], .priority 1]) = true := by decide +kernel
/-- rfc5424/machine_test.go:1250 `<1>1 - - - - - - \xef\xbb\xbf\xe7\xa7\x81\xe3\x81\xaf\xe3\x82\xac\xe3\x83\xa9\xe3\x82\xb9\xe3\x82\x92\xe9\xa3\x9f\xe3\x81\xb9\xe3\x82\x89\xe3\x82\x8c\xe3\x81\xbe\xe3\x81\x99\xe3\x80\x82\xe3\x81\x9d\xe3\x82\x8c\xe3\x81\xaf\xe7\xa7\x81\xe3\x82\x92\xe5\x82\xb7\xe3\x81\xa4\xe3\x81\x91\xe3\x81\xbe\xe3\x81\x9b\xe3\x82\x93\xe3\x80\x82` -/
example : valid5424 true [60, 49, 62, 49, 32, 45, 32, 45, 32, 45, 32, 45, 32, 45, 32, 45, 32, 239, 187, 191, 231, 167, 129, 227, 129, 175, 227, 130, 172, 227, 131, 169, 227, 130, 185, 227, 130, 146, 233, 163, 159, 227, 129, 185, 227, 130, 137, 227, 130, 140, 227, 129, 190, 227, 129, 153, 227, 128, 130, 227, 129, 157, 227, 130, 140, 227, 129, 175, 231, 167, 129, 227, 130, 146, 229, 130, 183, 227, 129, 164, 227, 129, 145, 227, 129, 190, 227, 129, 155, 227, 130, 147, 227, 128, 130] (built [.version 1, .message [239, 187, 191, 231, 167, 129, 227, 129, 175, 227, 130, 172, 227, 131, 169, 227, 130, 185, 227, 130, 146, 233, 163, 159, 227, 129, 185, 227, 130, 137, 227, 130, 140, 227, 129, 190, 227, 129, 153, 227, 128, 130, 227, 129, 157, 227, 130, 140, 227, 129, 175, 231, 167, 129, 227, 130, 146, 229, 130, 183, 227, 129, 164, 227, 129, 145, 227, 129, 190, 227, 129, 155, 227, 130, 147, 227, 128, 130], .priority 1]) = true := by decide +kernel
/-- rfc5424/machine_test.go:1258 `<1>1 - - - - - - \xef\xbb\xbf\xd8\xa3\xd9\x86\xd8\xa7 \xd9\x82\xd8\xa7\xd8\xaf\xd8\xb1 \xd8\xb9\xd9\x84\xd9\x89 \xd8\xa3\xd9\x83\xd9\x84 \xd8\xa7\xd9\x84\xd8\xb2\xd8\xac\xd8\xa7\xd8\xac \xd9\x88 \xd9\x87\xd8\xb0\xd8\xa7 \xd9\x84\xd8\xa7 \xd9\x8a\xd8\xa4\xd9\x84\xd9\x85\xd9\x86\xd9\x8a.` -/
example : valid5424 true [60, 49, 62, 49, 32, 45, 32, 45, 32, 45, 32, 45, 32, 45, 32, 45, 32, 239, 187, 191, 216, 163, 217, 134, 216, 167, 32, 217, 130, 216, 167, 216, 175, 216, 177, 32, 216, 185, 217, 132, 217, 137, 32, 216, 163, 217, 131, 217, 132, 32, 216, 167, 217, 132, 216, 178, 216, 172, 216, 167, 216, 172, 32, 217, 136, 32, 217, 135, 216, 176, 216, 167, 32, 217, 132, 216, 167, 32, 217, 138, 216, 164, 217, 132, 217, 133, 217, 134, 217, 138, 46] (built [.version 1, .message [239, 187, 191, 216, 163, 217, 134, 216, 167, 32, 217, 130, 216, 167, 216, 175, 216, 177, 32, 216, 185, 217, 132, 217, 137, 32, 216, 163, 217, 131, 217, 132, 32, 216, 167, 217, 132, 216, 178, 216, 172, 216, 167, 216, 172, 32, 217, 136, 32, 217, 135, 216, 176, 216, 167, 32, 217, 132, 216, 167, 32, 217, 138, 216, 164, 217, 132, 217, 133, 217, 134, 217, 138, 46], .priority 1]) = true := by decide +kernel
/-- rfc5424/machine_test.go:1266 `<1>1 - - - - - - \xef\xbb\xbf\xd0\xb0\xd0\xb1\xd0\xb2\xd0\xb3\xd0\xb4\xd0\xb5\xd1\x91\xd0\xb6\xd0\xb7\xd0\xb8\xd0\xb9\xd0\xba\xd0\xbb\xd0\xbc\xd0\xbd\xd0\xbe\xd0\xbf\xd1\x80\xd1\x81\xd1\x82\xd1\x83\xd1\x84\xd1\x85\xd1\x86\xd1\x87\xd1\x88\xd1\x89\xd1\x8a\xd1\x8b\xd1\x8c\xd1\x8d\xd1\x8e\xd1\x8f` -/
example : valid5424 true [60, 49, 62, 49, 32, 45, 32, 45, 32, 45, 32, 45, 32, 45, 32, 45, 32, 239, 187, 191, 208, 176, 208, 177, 208, 178, 208, 179, 208, 180, 208, 181, 209, 145, 208, 182, 208, 183, 208, 184, 208, 185, 208, 186, 208, 187, 208, 188, 208, 189, 208, 190, 208, 191, 209, 128, 209, 129, 209, 130, 209, 131, 209, 132, 209, 133, 209, 134, 209, 135, 209, 136, 209, 137, 209, 138, 209, 139, 209, 140, 209, 141, 209, 142, 209, 143] (built [.version 1, .message [239, 187, 191, 208, 176, 208, 177, 208, 178, 208, 179, 208, 180, 208, 181, 209, 145, 208, 182, 208, 183, 208, 184, 208, 185, 208, 186, 208, 187, 208, 188, 208, 189, 208, 190, 208, 191, 209, 128, 209, 129, 209, 130, 209, 131, 209, 132, 209, 133, 209, 134, 209, 135, 209, 136, 209, 137, 209, 138, 209, 139, 209, 140, 209, 141, 209, 142, 209, 143], .priority 1]) = true := by decide +kernel
/-- rfc5424/machine_test.go:1274 `<1>1 - - - - - - \xef\xbb\xbf\xd4\xb0\xd4\xb1\xd4\xb2\xd4\xb3\xd4\xb4\xd4\xb5\xd4\xb6\xd4\xb7\xd4\xb8\xd4\xb9\xd4\xba\xd4\xbb\xd4\xbc\xd4\xbd\xd4\xbe\xd4\xbf\xd5\x80\xd5\x81\xd5\x82\xd5\x83\xd5\x84\xd5\x85\xd5\x86\xd5\x87\xd5\x88\xd5\x89\xd5\x8a\xd5\x8b\xd5\x8c\xd5\x8d\xd5\x8e\xd5\x8f\xd5\x90\xd5\x91\xd5\x92\xd5\x93\xd5\x94\xd5\x95\xd5\x96\xd5\x97\xd5\x98\xd5\x99\xd5\x9a\xd5\x9b\xd5\x9c\xd5\x9d\xd5\x9e\xd5\x9f\xd5\xa1\xd5\xa2\xd5\xa3\xd5\xa4\xd5\xa5\xd5\xa6\xd5\xa7\xd5\xa8\xd5\xa9\xd5\xab\xd5\xac\xd5\xad\xd5\xae\xd5\xaf\xd5\xb0\xd5\xb1\xd5\xb2\xd5\xb3\xd5\xb4\xd5\xb5\xd5\xb6\xd5\xb7\xd5\xb8\xd5\xb9\xd5\xba\xd5\xbb\xd5\xbc\xd5\xbd\xd5\xbe\xd5\xbf\xd6\x80\xd6\x81\xd6\x82\xd6\x83\xd6\x84\xd6\x85\xd6\x86\xd6\x87\xd6\x88\xd6\x89\xd6\x8a\xd6\x8b\xd6\x8c\xd6\x8d\xd6\x8e\xd6\x8f` -/
example : valid5424 true [60, 49, 62, 49, 32, 45, 32, 45, 32, 45, 32, 45, 32, 45, 32, 45, 32, 239, 187, 191, 212, 176, 212, 177, 212, 178, 212, 179, 212, 180, 212, 181, 212, 182, 212, 183, 212, 184, 212, 185, 212, 186, 212, 187, 212, 188, 212, 189, 212, 190, 212, 191, 213, 128, 213, 129, 213, 130, 213, 131, 213, 132, 213, 133, 213, 134, 213, 135, 213, 136, 213, 137, 213, 138, 213, 139, 213, 140, 213, 141, 213, 142, 213, 143, 213, 144, 213, 145, 213, 146, 213, 147, 213, 148, 213, 149, 213, 150, 213, 151, 213, 152, 213, 153, 213, 154, 213, 155, 213, 156, 213, 157, 213, 158, 213, 159, 213, 161, 213, 162, 213, 163, 213, 164, 213, 165, 213, 166, 213, 167, 213, 168, 213, 169, 213, 171, 213, 172, 213, 173, 213, 174, 213, 175, 213, 176, 213, 177, 213, 178, 213, 179, 213, 180, 213, 181, 213, 182, 213, 183, 213, 184, 213, 185, 213, 186, 213, 187, 213, 188, 213, 189, 213, 190, 213, 191, 214, 128, 214, 129, 214, 130, 214, 131, 214, 132, 214, 133, 214, 134, 214, 135, 214, 136, 214, 137, 214, 138, 214, 139, 214, 140, 214, 141, 214, 142, 214, 143] (built [.version 1, .message [239, 187, 191, 212, 176, 212, 177, 212, 178, 212, 179, 212, 180, 212, 181, 212, 182, 212, 183, 212, 184, 212, 185, 212, 186, 212, 187, 212, 188, 212, 189, 212, 190, 212, 191, 213, 128, 213, 129, 213, 130, 213, 131, 213, 132, 213, 133, 213, 134, 213, 135, 213, 136, 213, 137, 213, 138, 213, 139, 213, 140, 213, 141, 213, 142, 213, 143, 213, 144, 213, 145, 213, 146, 213, 147, 213, 148, 213, 149, 213, 150, 213, 151, 213, 152, 213, 153, 213, 154, 213, 155, 213, 156, 213, 157, 213, 158, 213, 159, 213, 161, 213, 162, 213, 163, 213, 164, 213, 165, 213, 166, 213, 167, 213, 168, 213, 169, 213, 171, 213, 172, 213, 173, 213, 174, 213, 175, 213, 176, 213, 177, 213, 178, 213, 179, 213, 180, 213, 181, 213, 182, 213, 183, 213, 184, 213, 185, 213, 186, 213, 187, 213, 188, 213, 189, 213, 190, 213, 191, 214, 128, 214, 129, 214, 130, 214, 131, 214, 132, 214, 133, 214, 134, 214, 135, 214, 136, 214, 137, 214, 138, 214, 139, 214, 140, 214, 141, 214, 142, 214, 143], .priority 1]) = true := by decide +kernel
/-- rfc5424/machine_test.go:1283 `<1>1 - - - - - - fond\xfc bruucht vell ch\xe4\xe4s` -/
example : valid5424 true [60, 49, 62, 49, 32, 45, 32, 45, 32, 45, 32, 45, 32, 45, 32, 45, 32, 102, 111, 110, 100, 252, 32, 98, 114, 117, 117, 99, 104, 116, 32, 118, 101, 108, 108, 32, 99, 104, 228, 228, 115] (built [.version 1, .message [102, 111, 110, 100, 252, 32, 98, 114, 117, 117, 99, 104, 116, 32, 118, 101, 108, 108, 32, 99, 104, 228, 228, 115], .priority 1]) = true := by decide +kernel
/-- rfc5424/machine_test.go:1290 `<1>1 - - - - - - not starting with\xef\xbb\xbffond\xfc bruucht vell ch\xe4\xe4s` -/
example : valid5424 true [60, 49, 62, 49, 32, 45, 32, 45, 32, 45, 32, 45, 32, 45, 32, 45, 32, 110, 111, 116, 32, 115, 116, 97, 114, 116, 105, 110, 103, 32, 119, 105, 116, 104, 239, 187, 191, 102, 111, 110, 100, 252, 32, 98, 114, 117, 117, 99, 104, 116, 32, 118, 101, 108, 108, 32, 99, 104, 228, 228, 115] (built [.version 1, .message [110, 111, 116, 32, 115, 116, 97, 114, 116, 105, 110, 103, 32, 119, 105, 116, 104, 239, 187, 191, 102, 111, 110, 100, 252, 32, 98, 114, 117, 117, 99, 104, 116, 32, 118, 101, 108, 108, 32, 99, 104, 228, 228, 115], .priority 1]) = true := by decide +kernel
/-- rfc5424/machine_test.go:1298 `<1>1 - - - - - - \xf6` -/
example : valid5424 true [60, 49, 62, 49, 32, 45, 32, 45, 32, 45, 32, 45, 32, 45, 32, 45, 32, 246] (built [.version 1, .message [246], .priority 1]) = true := by decide +kernel
/-- rfc5424/machine_test.go:1305 `<1>1 - - - - - - \xf6\xf6` -/
example : valid5424 true [60, 49, 62, 49, 32, 45, 32, 45, 32, 45, 32, 45, 32, 45, 32, 45, 32, 246, 246] (built [.version 1, .message [246, 246], .priority 1]) = true := by decide +kernel
/-- rfc5424/machine_test.go:1312 `<1>1 - - - - - - \xf6\xf6\xf6` -/
example : valid5424 true [60, 49, 62, 49, 32, 45, 32, 45, 32, 45, 32, 45, 32, 45, 32, 45, 32, 246, 246, 246] (built [.version 1, .message [246, 246, 246], .priority 1]) = true := by decide +kernel
/-- rfc5424/machine_test.go:1319 `<1>1 - - - - - - \xf6\xf6\xf6\xf6` -/
example : valid5424 true [60, 49, 62, 49, 32, 45, 32, 45, 32, 45, 32, 45, 32, 45, 32, 45, 32, 246, 246, 246, 246] (built [.version 1, .message [246, 246, 246, 246], .priority 1]) = true := by decide +kernel
/-- rfc5424/machine_test.go:1326 `<1>1 - - - - - - \xf6\xf6\xf6\xf6\xf6` -/
example : valid5424 true [60, 49, 62, 49, 32, 45, 32, 45, 32, 45, 32, 45, 32, 45, 32, 45, 32, 246, 246, 246, 246, 246] (built [.version 1, .message [246, 246, 246, 246, 246], .priority 1]) = true := by decide +kernel
/-- rfc5424/machine_test.go:1334 `<1>1 - - - - - - x\ny` -/
example : valid5424 true [60, 49, 62, 49, 32, 45, 32, 45, 32, 45, 32, 45, 32, 45, 32, 45, 32, 120, 10, 121] (built [.version 1, .message [120, 10, 121], .priority 1]) = true := by decide +kernel
/-- rfc5424/machine_test.go:1341 `<1>3 - - - - - - x\ny` -/
example : valid5424 true [60, 49, 62, 51, 32, 45, 32, 45, 32, 45, 32, 45, 32, 45, 32, 45, 32, 120, 10, 121] (built [.version 3, .message [120, 10, 121], .priority 1]) = true := by decide +kernel
/-- rfc5424/machine_test.go:1350 `<1>10 -- - - - -` -/
example : invalid5424 true [60, 49, 62, 49, 48, 32, 45, 45, 32, 45, 32, 45, 32, 45, 32, 45] ⟨.parse, 7⟩ (some (built [.version 10, .priority 1])) = true := by decide +kernel
/-- rfc5424/machine_test.go:1361 `<1>1 - - - - - - \xef\xbb\xbf\xc1` -/
example : invalid5424 true [60, 49, 62, 49, 32, 45, 32, 45, 32, 45, 32, 45, 32, 45, 32, 45, 32, 239, 187, 191, 193] ⟨.msgNotCompliant, 20⟩ (some (built [.version 1, .message [239, 187, 191], .priority 1])) = true := by decide +kernel
/-- rfc5424/machine_test.go:1368 `<1>4 - - - - - - \xef\xbb\xbf\xc3(` -/
example : invalid5424 true [60, 49, 62, 52, 32, 45, 32, 45, 32, 45, 32, 45, 32, 45, 32, 45, 32, 239, 187, 191, 195, 40] ⟨.msgNotCompliant, 21⟩ (some { (built [.version 4, .priority 1]) with message := (some [239, 187, 191, 195]) }) = true := by decide +kernel
/-- rfc5424/machine_test.go:1375 `<7>1 - - - - - - \xef\xbb\xbf\xa0\xa1` -/
example : invalid5424 true [60, 55, 62, 49, 32, 45, 32, 45, 32, 45, 32, 45, 32, 45, 32, 45, 32, 239, 187, 191, 160, 161] ⟨.msgNotCompliant, 20⟩ (some { (built [.version 1, .priority 7]) with message := (some [239, 187, 191]) }) = true := by decide +kernel
/-- rfc5424/machine_test.go:1382 `<1>1 - - - - - - \xef\xbb\xbf\xe2(\xa1` -/
example : invalid5424 true [60, 49, 62, 49, 32, 45, 32, 45, 32, 45, 32, 45, 32, 45, 32, 45, 32, 239, 187, 191, 226, 40, 161] ⟨.msgNotCompliant, 21⟩ (some { (built [.version 1, .priority 1]) with message := (some [239, 187, 191, 226]) }) = true := by decide +kernel
/-- rfc5424/machine_test.go:1389 `<6>1 - - - - - - \xef\xbb\xbf\xe2\x82(` -/
example : invalid5424 true [60, 54, 62, 49, 32, 45, 32, 45, 32, 45, 32, 45, 32, 45, 32, 45, 32, 239, 187, 191, 226, 130, 40] ⟨.msgNotCompliant, 22⟩ (some { (built [.version 1, .priority 6]) with message := (some [239, 187, 191, 226, 130]) }) = true := by decide +kernel
/-- rfc5424/machine_test.go:1396 `<1>1 - - - - - - \xef\xbb\xbf\xf0(\x8c\xbc` -/
example : invalid5424 true [60, 49, 62, 49, 32, 45, 32, 45, 32, 45, 32, 45, 32, 45, 32, 45, 32, 239, 187, 191, 240, 40, 140, 188] ⟨.msgNotCompliant, 21⟩ (some { (built [.version 1, .priority 1]) with message := (some [239, 187, 191, 240]) }) = true := by decide +kernel
/-- rfc5424/machine_test.go:1403 `<1>1 - - - - - - \xef\xbb\xbf\xf0\x90(\xbc` -/
example : invalid5424 true [60, 49, 62, 49, 32, 45, 32, 45, 32, 45, 32, 45, 32, 45, 32, 45, 32, 239, 187, 191, 240, 144, 40, 188] ⟨.msgNotCompliant, 22⟩ (some { (built [.version 1, .priority 1]) with message := (some [239, 187, 191, 240, 144]) }) = true := by decide +kernel
/-- rfc5424/machine_test.go:1410 `<1>1 - - - - - - \xef\xbb\xbf\xf0(\x8c(` -/
example : invalid5424 true [60, 49, 62, 49, 32, 45, 32, 45, 32, 45, 32, 45, 32, 45, 32, 45, 32, 239, 187, 191, 240, 40, 140, 40] ⟨.msgNotCompliant, 21⟩ (some { (built [.version 1, .priority 1]) with message := (some [239, 187, 191, 240]) }) = true := by decide +kernel
/-- rfc5424/machine_test.go:1418 `<1>1 - - - - - - \xef\xbb\xbf\xfe\xfe\xff\xff` -/
example : invalid5424 true [60, 49, 62, 49, 32, 45, 32, 45, 32, 45, 32, 45, 32, 45, 32, 45, 32, 239, 187, 191, 254, 254, 255, 255] ⟨.msgNotCompliant, 20⟩ (some { (built [.version 1, .priority 1]) with message := (some [239, 187, 191]) }) = true := by decide +kernel
/-- rfc5424/machine_test.go:1425 `<1>1 - - - - - - \xef\xbb\xbf\xfe` -/
example : invalid5424 true [60, 49, 62, 49, 32, 45, 32, 45, 32, 45, 32, 45, 32, 45, 32, 45, 32, 239, 187, 191, 254] ⟨.msgNotCompliant, 20⟩ (some { (built [.version 1, .priority 1]) with message := (some [239, 187, 191]) }) = true := by decide +kernel
/-- rfc5424/machine_test.go:1432 `<1>1 - - - - - - \xef\xbb\xbf\xff` -/
example : invalid5424 true [60, 49, 62, 49, 32, 45, 32, 45, 32, 45, 32, 45, 32, 45, 32, 45, 32, 239, 187, 191, 255] ⟨.msgNotCompliant, 20⟩ (some { (built [.version 1, .priority 1]) with message := (some [239, 187, 191]) }) = true := by decide +kernel
/-- rfc5424/machine_test.go:1440 `<1>1 - - - - - - \xef\xbb\xbf\xfc\x80\x80\x80\x80\xaf` -/
example : invalid5424 true [60, 49, 62, 49, 32, 45, 32, 45, 32, 45, 32, 45, 32, 45, 32, 45, 32, 239, 187, 191, 252, 128, 128, 128, 128, 175] ⟨.msgNotCompliant, 20⟩ (some { (built [.version 1, .priority 1]) with message := (some [239, 187, 191]) }) = true := by decide +kernel

end Verif.Conformance
