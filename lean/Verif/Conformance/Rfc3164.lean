import Verif.Conformance.Basic

/-!
# `TestMachineParse` (rfc3164/machine_test.go)

Written by `tools/conform.py`; do not edit. One `example` per test case of the repository, with the line of the case.
-/

namespace Verif.Conformance
open Verif.Builder (Call)

/-- rfc3164/machine_test.go:23 -/
example : valid3164 [60, 51, 52, 62, 74, 97, 110, 32, 49, 50, 32, 48, 54, 58, 51, 48, 58, 48, 48, 32, 120, 120, 120, 32, 97, 112, 97, 99, 104, 101, 58, 32, 49, 46, 50, 46, 51, 46, 52, 32, 45, 32, 45, 32, 91, 49, 50, 47, 74, 97, 110, 47, 50, 48, 49, 49, 58, 48, 54, 58, 50, 57, 58, 53, 57, 32, 43, 48, 49, 48, 48, 93, 32, 34, 71, 69, 84, 32, 47, 102, 111, 111, 47, 98, 97, 114, 46, 104, 116, 109, 108, 32, 72, 84, 84, 80, 47, 49, 46, 49, 34, 32, 51, 48, 49, 32, 57, 54, 32, 34, 45, 34, 32, 34, 77, 111, 122, 105, 108, 108, 97, 47, 53, 46, 48, 32, 40, 87, 105, 110, 100, 111, 119, 115, 59, 32, 85, 59, 32, 87, 105, 110, 100, 111, 119, 115, 32, 78, 84, 32, 53, 46, 49, 59, 32, 102, 114, 59, 32, 114, 118, 58, 49, 46, 57, 46, 50, 46, 49, 50, 41, 32, 71, 101, 99, 107, 111, 47, 50, 48, 49, 48, 49, 48, 50, 54, 32, 70, 105, 114, 101, 102, 111, 120, 47, 51, 46, 54, 46, 49, 50, 32, 40, 32, 46, 78, 69, 84, 32, 67, 76, 82, 32, 51, 46, 53, 46, 51, 48, 55, 50, 57, 41, 34, 32, 80, 73, 68, 32, 49, 56, 57, 48, 52, 32, 84, 105, 109, 101, 32, 84, 97, 107, 101, 110, 32, 48] ({ priority := (some 34), severity := (some 2), facility := (some 4), timestamp := (some ⟨0, 1, 12, 6, 30, 0, 0, 0⟩), hostname := (some [120, 120, 120]), appname := (some [97, 112, 97, 99, 104, 101]), message := (some [49, 46, 50, 46, 51, 46, 52, 32, 45, 32, 45, 32, 91, 49, 50, 47, 74, 97, 110, 47, 50, 48, 49, 49, 58, 48, 54, 58, 50, 57, 58, 53, 57, 32, 43, 48, 49, 48, 48, 93, 32, 34, 71, 69, 84, 32, 47, 102, 111, 111, 47, 98, 97, 114, 46, 104, 116, 109, 108, 32, 72, 84, 84, 80, 47, 49, 46, 49, 34, 32, 51, 48, 49, 32, 57, 54, 32, 34, 45, 34, 32, 34, 77, 111, 122, 105, 108, 108, 97, 47, 53, 46, 48, 32, 40, 87, 105, 110, 100, 111, 119, 115, 59, 32, 85, 59, 32, 87, 105, 110, 100, 111, 119, 115, 32, 78, 84, 32, 53, 46, 49, 59, 32, 102, 114, 59, 32, 114, 118, 58, 49, 46, 57, 46, 50, 46, 49, 50, 41, 32, 71, 101, 99, 107, 111, 47, 50, 48, 49, 48, 49, 48, 50, 54, 32, 70, 105, 114, 101, 102, 111, 120, 47, 51, 46, 54, 46, 49, 50, 32, 40, 32, 46, 78, 69, 84, 32, 67, 76, 82, 32, 51, 46, 53, 46, 51, 48, 55, 50, 57, 41, 34, 32, 80, 73, 68, 32, 49, 56, 57, 48, 52, 32, 84, 105, 109, 101, 32, 84, 97, 107, 101, 110, 32, 48]) } : Base) = true := by decide +kernel
/-- rfc3164/machine_test.go:40 -/
example : valid3164 [60, 51, 52, 62, 65, 117, 103, 32, 32, 55, 32, 48, 54, 58, 51, 48, 58, 48, 48, 32, 120, 120, 120, 32, 97, 97, 97, 58, 32, 109, 101, 115, 115, 97, 103, 101, 32, 102, 114, 111, 109, 32, 49, 46, 50, 46, 51, 46, 52] ({ priority := (some 34), severity := (some 2), facility := (some 4), timestamp := (some ⟨0, 8, 7, 6, 30, 0, 0, 0⟩), hostname := (some [120, 120, 120]), appname := (some [97, 97, 97]), message := (some [109, 101, 115, 115, 97, 103, 101, 32, 102, 114, 111, 109, 32, 49, 46, 50, 46, 51, 46, 52]) } : Base) = true := by decide +kernel
/-- rfc3164/machine_test.go:57 -/
example : valid3164 [60, 56, 53, 62, 74, 97, 110, 32, 50, 52, 32, 49, 53, 58, 53, 48, 58, 52, 49, 32, 105, 112, 45, 49, 55, 50, 45, 51, 49, 45, 51, 48, 45, 49, 49, 48, 32, 115, 117, 100, 111, 91, 54, 48, 52, 48, 93, 58, 32, 101, 99, 50, 45, 117, 115, 101, 114, 32, 58, 32, 84, 84, 89, 61, 112, 116, 115, 47, 48, 32, 59, 32, 80, 87, 68, 61, 47, 118, 97, 114, 47, 108, 111, 103, 32, 59, 32, 85, 83, 69, 82, 61, 114, 111, 111, 116, 32, 59, 32, 67, 79, 77, 77, 65, 78, 68, 61, 47, 98, 105, 110, 47, 116, 97, 105, 108, 32, 115, 101, 99, 117, 114, 101] ({ priority := (some 85), facility := (some 10), severity := (some 5), timestamp := (some ⟨0, 1, 24, 15, 50, 41, 0, 0⟩), hostname := (some [105, 112, 45, 49, 55, 50, 45, 51, 49, 45, 51, 48, 45, 49, 49, 48]), appname := (some [115, 117, 100, 111]), procID := (some [54, 48, 52, 48]), message := (some [101, 99, 50, 45, 117, 115, 101, 114, 32, 58, 32, 84, 84, 89, 61, 112, 116, 115, 47, 48, 32, 59, 32, 80, 87, 68, 61, 47, 118, 97, 114, 47, 108, 111, 103, 32, 59, 32, 85, 83, 69, 82, 61, 114, 111, 111, 116, 32, 59, 32, 67, 79, 77, 77, 65, 78, 68, 61, 47, 98, 105, 110, 47, 116, 97, 105, 108, 32, 115, 101, 99, 117, 114, 101]) } : Base) = true := by decide +kernel
/-- rfc3164/machine_test.go:73 -/
example : valid3164 [60, 49, 54, 54, 62, 74, 117, 108, 32, 32, 54, 32, 50, 48, 58, 51, 51, 58, 50, 56, 32, 65, 66, 67, 45, 49, 45, 50, 51, 52, 53, 54, 55, 32, 83, 111, 109, 101, 32, 109, 101, 115, 115, 97, 103, 101, 32, 104, 101, 114, 101] ({ priority := (some 166), facility := (some 20), severity := (some 6), timestamp := (some ⟨0, 7, 6, 20, 33, 28, 0, 0⟩), hostname := (some [65, 66, 67, 45, 49, 45, 50, 51, 52, 53, 54, 55]), message := (some [83, 111, 109, 101, 32, 109, 101, 115, 115, 97, 103, 101, 32, 104, 101, 114, 101]) } : Base) = true := by decide +kernel
/-- rfc3164/machine_test.go:87 -/
example : valid3164 [60, 51, 52, 62, 79, 99, 116, 32, 49, 49, 32, 50, 50, 58, 49, 52, 58, 49, 53, 32, 109, 121, 109, 97, 99, 104, 105, 110, 101, 32, 115, 117, 58, 32, 39, 115, 117, 32, 114, 111, 111, 116, 39, 32, 102, 97, 105, 108, 101, 100, 32, 102, 111, 114, 32, 108, 111, 110, 118, 105, 99, 107, 32, 111, 110, 32, 47, 100, 101, 118, 47, 112, 116, 115, 47, 56] ({ priority := (some 34), facility := (some 4), severity := (some 2), timestamp := (some ⟨0, 10, 11, 22, 14, 15, 0, 0⟩), hostname := (some [109, 121, 109, 97, 99, 104, 105, 110, 101]), appname := (some [115, 117]), message := (some [39, 115, 117, 32, 114, 111, 111, 116, 39, 32, 102, 97, 105, 108, 101, 100, 32, 102, 111, 114, 32, 108, 111, 110, 118, 105, 99, 107, 32, 111, 110, 32, 47, 100, 101, 118, 47, 112, 116, 115, 47, 56]) } : Base) = true := by decide +kernel
/-- rfc3164/machine_test.go:102 -/
example : valid3164 [60, 49, 51, 62, 70, 101, 98, 32, 32, 53, 32, 49, 55, 58, 51, 50, 58, 49, 56, 32, 49, 48, 46, 48, 46, 48, 46, 57, 57, 32, 85, 115, 101, 32, 116, 104, 101, 32, 66, 70, 71, 33] ({ priority := (some 13), facility := (some 1), severity := (some 5), timestamp := (some ⟨0, 2, 5, 17, 32, 18, 0, 0⟩), hostname := (some [49, 48, 46, 48, 46, 48, 46, 57, 57]), message := (some [85, 115, 101, 32, 116, 104, 101, 32, 66, 70, 71, 33]) } : Base) = true := by decide +kernel
/-- rfc3164/machine_test.go:116 -/
example : valid3164 [60, 49, 54, 53, 62, 65, 117, 103, 32, 50, 52, 32, 48, 53, 58, 51, 52, 58, 48, 48, 32, 109, 121, 109, 97, 99, 104, 105, 110, 101, 32, 109, 121, 112, 114, 111, 99, 91, 49, 48, 93, 58, 32, 37, 37, 32, 73, 116, 39, 115, 32, 116, 105, 109, 101, 32, 116, 111, 32, 109, 97, 107, 101, 32, 116, 104, 101, 32, 100, 111, 45, 110, 117, 116, 115, 46, 32, 32, 37, 37, 32, 32, 73, 110, 103, 114, 101, 100, 105, 101, 110, 116, 115, 58, 32, 77, 105, 120, 61, 79, 75, 44, 32, 74, 101, 108, 108, 121, 61, 79, 75, 32, 35, 32, 68, 101, 118, 105, 99, 101, 115, 58, 32, 77, 105, 120, 101, 114, 61, 79, 75, 44, 32, 74, 101, 108, 108, 121, 95, 73, 110, 106, 101, 99, 116, 111, 114, 61, 79, 75, 44, 32, 70, 114, 105, 101, 114, 61, 79, 75, 32, 35, 32, 84, 114, 97, 110, 115, 112, 111, 114, 116, 58, 32, 67, 111, 110, 118, 101, 121, 101, 114, 49, 61, 79, 75, 44, 32, 67, 111, 110, 118, 101, 121, 101, 114, 50, 61, 79, 75, 32, 35, 32, 37, 37] ({ priority := (some 165), facility := (some 20), severity := (some 5), timestamp := (some ⟨0, 8, 24, 5, 34, 0, 0, 0⟩), hostname := (some [109, 121, 109, 97, 99, 104, 105, 110, 101]), appname := (some [109, 121, 112, 114, 111, 99]), procID := (some [49, 48]), message := (some [37, 37, 32, 73, 116, 39, 115, 32, 116, 105, 109, 101, 32, 116, 111, 32, 109, 97, 107, 101, 32, 116, 104, 101, 32, 100, 111, 45, 110, 117, 116, 115, 46, 32, 32, 37, 37, 32, 32, 73, 110, 103, 114, 101, 100, 105, 101, 110, 116, 115, 58, 32, 77, 105, 120, 61, 79, 75, 44, 32, 74, 101, 108, 108, 121, 61, 79, 75, 32, 35, 32, 68, 101, 118, 105, 99, 101, 115, 58, 32, 77, 105, 120, 101, 114, 61, 79, 75, 44, 32, 74, 101, 108, 108, 121, 95, 73, 110, 106, 101, 99, 116, 111, 114, 61, 79, 75, 44, 32, 70, 114, 105, 101, 114, 61, 79, 75, 32, 35, 32, 84, 114, 97, 110, 115, 112, 111, 114, 116, 58, 32, 67, 111, 110, 118, 101, 121, 101, 114, 49, 61, 79, 75, 44, 32, 67, 111, 110, 118, 101, 121, 101, 114, 50, 61, 79, 75, 32, 35, 32, 37, 37]) } : Base) = true := by decide +kernel
/-- rfc3164/machine_test.go:132 -/
example : valid3164 [60, 48, 62, 79, 99, 116, 32, 50, 50, 32, 49, 48, 58, 53, 50, 58, 48, 49, 32, 49, 48, 46, 49, 46, 50, 46, 51, 32, 115, 99, 104, 101, 100, 91, 48, 93, 58, 32, 84, 104, 97, 116, 39, 115, 32, 65, 108, 108, 32, 70, 111, 108, 107, 115, 33] ({ priority := (some 0), facility := (some 0), severity := (some 0), timestamp := (some ⟨0, 10, 22, 10, 52, 1, 0, 0⟩), hostname := (some [49, 48, 46, 49, 46, 50, 46, 51]), appname := (some [115, 99, 104, 101, 100]), procID := (some [48]), message := (some [84, 104, 97, 116, 39, 115, 32, 65, 108, 108, 32, 70, 111, 108, 107, 115, 33]) } : Base) = true := by decide +kernel

end Verif.Conformance
