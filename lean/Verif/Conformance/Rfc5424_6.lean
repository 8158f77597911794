import Verif.Conformance.Basic

/-!
# `TestMachineParse` (rfc5424/machine_test.go)

Written by `tools/conform.py`; do not edit. One `example` per test case of the repository, with the line of the case.
-/

namespace Verif.Conformance
open Verif.Builder (Call)

/-- rfc5424/machine_test.go:1186 `<1>1 - - - - - - \xef\xbb\xbf\xe0\xae\xaf\xe0\xae\xbe\xe0\xae\xae\xe0\xae\xb1\xe0\xae\xbf\xe0\xae\xa8\xe0\xaf\x8d\xe0\xae\xa4 \xe0\xae\xae\xe0\xaf\x8a\xe0\xae\xb4\xe0\xae\xbf\xe0\xae\x95\xe0\xae\xb3\xe0\xae\xbf\xe0\xae\xb2\xe0\xaf\x87 \xe0\xae\xa4\xe0\xae\xae\xe0\xae\xbf\xe0\xae\xb4\xe0\xaf\x8d\xe0\xae\xae\xe0\xaf\x8a\xe0\xae\xb4\xe0\xae\xbf \xe0\xae\xaa\xe0\xaf\x8b\xe0\xae\xb2\xe0\xaf\x8d \xe0\xae\x87\xe0\xae\xa9\xe0\xae\xbf\xe0\xae\xa4\xe0\xae\xbe\xe0\xae\xb5\xe0\xae\xa4\xe0\xaf\x81 \xe0\xae\x8e\xe0\xae\x99\xe0\xaf\x8d\xe0\xae\x95\xe0\xaf\x81\xe0\xae\xae\xe0\xaf\x8d \xe0\xae\x95\xe0\xae\xbe\xe0\xae\xa3\xe0\xaf\x8b\xe0\xae\xae\xe0\xaf\x8d, \xe0\xae\xaa\xe0\xae\xbe\xe0\xae\xae\xe0\xae\xb0\xe0\xae\xb0\xe0\xae\xbe\xe0\xae\xaf\xe0\xaf\x8d \xe0\xae\xb5\xe0\xae\xbf\xe0\xae\xb2\xe0\xae\x99\xe0\xaf\x8d\xe0\xae\x95\xe0\xaf\x81\xe0\xae\x95\xe0\xae\xb3\xe0\xae\xbe\xe0\xae\xaf\xe0\xaf\x8d, \xe0\xae\x89\xe0\xae\xb2\xe0\xae\x95\xe0\xae\xa9\xe0\xaf\x88\xe0\xae\xa4\xe0\xaf\x8d\xe0\xae\xa4\xe0\xaf\x81\xe0\xae\xae\xe0\xaf\x8d \xe0\xae\x87\xe0\xae\x95\xe0\xae\xb4\xe0\xaf\x8d\xe0\xae\x9a\xe0\xaf\x8d\xe0\xae\x9a\xe0\xae\xbf\xe0\xae\x9a\xe0\xaf\x8a\xe0\xae\xb2\xe0\xae\xaa\xe0\xaf\x8d \xe0\xae\xaa\xe0\xae\xbe\xe0\xae\xa9\xe0\xaf\x8d\xe0\xae\xae\xe0\xaf\x88 \xe0\xae\x95\xe0\xaf\x86\xe0\xae\x9f\xe0\xaf\x8d\xe0\xae\x9f\xe0\xaf\x81, \xe0\xae\xa8\xe0\xae\xbe\xe0\xae\xae\xe0\xae\xae\xe0\xae\xa4\xe0\xaf\x81 \xe0\xae\xa4\xe0\xae\xae\xe0\xae\xbf\xe0\xae\xb4\xe0\xae\xb0\xe0\xaf\x86\xe0\xae\xa9\xe0\xae\x95\xe0\xaf\x8d \xe0\xae\x95\xe0\xaf\x8a\xe0\xae\xa3\xe0\xaf\x8d\xe0\xae\x9f\xe0\xaf\x81 \xe0\xae\x87\xe0\xae\x99\xe0\xaf\x8d\xe0\xae\x95\xe0\xaf\x81 \xe0\xae\xb5\xe0\xae\xbe\xe0\xae\xb4\xe0\xaf\x8d\xe0\xae\xa8\xe0\xaf\x8d\xe0\xae\xa4\xe0\xae\xbf\xe0\xae\x9f\xe0\xaf\x81\xe0\xae\xa4\xe0\xae\xb2\xe0\xaf\x8d \xe0\xae\xa8\xe0\xae\xa9\xe0\xaf\x8d\xe0\xae\xb1\xe0\xaf\x8b? \xe0\xae\x9a\xe0\xaf\x8a\xe0\xae\xb2\xe0\xaf\x8d\xe0\xae\xb2\xe0\xaf\x80\xe0\xae\xb0\xe0\xaf\x8d! \xe0\xae\xa4\xe0\xaf\x87\xe0\xae\xae\xe0\xae\xa4\xe0\xaf\x81\xe0\xae\xb0\xe0\xae\xa4\xe0\xaf\x8d \xe0\xae\xa4\xe0\xae\xae\xe0\xae\xbf\xe0\xae\xb4\xe0\xaf\x8b\xe0\xae\x9a\xe0\xaf\x88 \xe0\xae\x89\xe0\xae\xb2\xe0\xae\x95\xe0\xae\xae\xe0\xaf\x86\xe0\xae\xb2\xe0\xae\xbe\xe0\xae\xae\xe0\xaf\x8d \xe0\xae\xaa\xe0\xae\xb0\xe0\xae\xb5\xe0\xaf\x81\xe0\xae\xae\xe0\xaf\x8d\xe0\xae\xb5\xe0\xae\x95\xe0\xaf\x88 \xe0\xae\x9a\xe0\xaf\x86\xe0\xae\xaf\xe0\xaf\x8d\xe0\xae\xa4\xe0\xae\xb2\xe0\xaf\x8d \xe0\xae\xb5\xe0\xaf\x87\xe0\xae\xa3\xe0\xaf\x8d\xe0\xae\x9f\xe0\xaf\x81\xe0\xae\xae\xe0\xaf\x8d.` -/
example : valid5424 false [60, 49, 62, 49, 32, 45, 32, 45, 32, 45, 32, 45, 32, 45, 32, 45, 32, 239, 187, 191, 224, 174, 175, 224, 174, 190, 224, 174, 174, 224, 174, 177, 224, 174, 191, 224, 174, 168, 224, 175, 141, 224, 174, 164, 32, 224, 174, 174, 224, 175, 138, 224, 174, 180, 224, 174, 191, 224, 174, 149, 224, 174, 179, 224, 174, 191, 224, 174, 178, 224, 175, 135, 32, 224, 174, 164, 224, 174, 174, 224, 174, 191, 224, 174, 180, 224, 175, 141, 224, 174, 174, 224, 175, 138, 224, 174, 180, 224, 174, 191, 32, 224, 174, 170, 224, 175, 139, 224, 174, 178, 224, 175, 141, 32, 224, 174, 135, 224, 174, 169, 224, 174, 191, 224, 174, 164, 224, 174, 190, 224, 174, 181, 224, 174, 164, 224, 175, 129, 32, 224, 174, 142, 224, 174, 153, 224, 175, 141, 224, 174, 149, 224, 175, 129, 224, 174, 174, 224, 175, 141, 32, 224, 174, 149, 224, 174, 190, 224, 174, 163, 224, 175, 139, 224, 174, 174, 224, 175, 141, 44, 32, 224, 174, 170, 224, 174, 190, 224, 174, 174, 224, 174, 176, 224, 174, 176, 224, 174, 190, 224, 174, 175, 224, 175, 141, 32, 224, 174, 181, 224, 174, 191, 224, 174, 178, 224, 174, 153, 224, 175, 141, 224, 174, 149, 224, 175, 129, 224, 174, 149, 224, 174, 179, 224, 174, 190, 224, 174, 175, 224, 175, 141, 44, 32, 224, 174, 137, 224, 174, 178, 224, 174, 149, 224, 174, 169, 224, 175, 136, 224, 174, 164, 224, 175, 141, 224, 174, 164, 224, 175, 129, 224, 174, 174, 224, 175, 141, 32, 224, 174, 135, 224, 174, 149, 224, 174, 180, 224, 175, 141, 224, 174, 154, 224, 175, 141, 224, 174, 154, 224, 174, 191, 224, 174, 154, 224, 175, 138, 224, 174, 178, 224, 174, 170, 224, 175, 141, 32, 224, 174, 170, 224, 174, 190, 224, 174, 169, 224, 175, 141, 224, 174, 174, 224, 175, 136, 32, 224, 174, 149, 224, 175, 134, 224, 174, 159, 224, 175, 141, 224, 174, 159, 224, 175, 129, 44, 32, 224, 174, 168, 224, 174, 190, 224, 174, 174, 224, 174, 174, 224, 174, 164, 224, 175, 129, 32, 224, 174, 164, 224, 174, 174, 224, 174, 191, 224, 174, 180, 224, 174, 176, 224, 175, 134, 224, 174, 169, 224, 174, 149, 224, 175, 141, 32, 224, 174, 149, 224, 175, 138, 224, 174, 163, 224, 175, 141, 224, 174, 159, 224, 175, 129, 32, 224, 174, 135, 224, 174, 153, 224, 175, 141, 224, 174, 149, 224, 175, 129, 32, 224, 174, 181, 224, 174, 190, 224, 174, 180, 224, 175, 141, 224, 174, 168, 224, 175, 141, 224, 174, 164, 224, 174, 191, 224, 174, 159, 224, 175, 129, 224, 174, 164, 224, 174, 178, 224, 175, 141, 32, 224, 174, 168, 224, 174, 169, 224, 175, 141, 224, 174, 177, 224, 175, 139, 63, 32, 224, 174, 154, 224, 175, 138, 224, 174, 178, 224, 175, 141, 224, 174, 178, 224, 175, 128, 224, 174, 176, 224, 175, 141, 33, 32, 224, 174, 164, 224, 175, 135, 224, 174, 174, 224, 174, 164, 224, 175, 129, 224, 174, 176, 224, 174, 164, 224, 175, 141, 32, 224, 174, 164, 224, 174, 174, 224, 174, 191, 224, 174, 180, 224, 175, 139, 224, 174, 154, 224, 175, 136, 32, 224, 174, 137, 224, 174, 178, 224, 174, 149, 224, 174, 174, 224, 175, 134, 224, 174, 178, 224, 174, 190, 224, 174, 174, 224, 175, 141, 32, 224, 174, 170, 224, 174, 176, 224, 174, 181, 224, 175, 129, 224, 174, 174, 224, 175, 141, 224, 174, 181, 224, 174, 149, 224, 175, 136, 32, 224, 174, 154, 224, 175, 134, 224, 174, 175, 224, 175, 141, 224, 174, 164, 224, 174, 178, 224, 175, 141, 32, 224, 174, 181, 224, 175, 135, 224, 174, 163, 224, 175, 141, 224, 174, 159, 224, 175, 129, 224, 174, 174, 224, 175, 141, 46] (built [.version 1, .message [239, 187, 191, 224, 174, 175, 224, 174, 190, 224, 174, 174, 224, 174, 177, 224, 174, 191, 224, 174, 168, 224, 175, 141, 224, 174, 164, 32, 224, 174, 174, 224, 175, 138, 224, 174, 180, 224, 174, 191, 224, 174, 149, 224, 174, 179, 224, 174, 191, 224, 174, 178, 224, 175, 135, 32, 224, 174, 164, 224, 174, 174, 224, 174, 191, 224, 174, 180, 224, 175, 141, 224, 174, 174, 224, 175, 138, 224, 174, 180, 224, 174, 191, 32, 224, 174, 170, 224, 175, 139, 224, 174, 178, 224, 175, 141, 32, 224, 174, 135, 224, 174, 169, 224, 174, 191, 224, 174, 164, 224, 174, 190, 224, 174, 181, 224, 174, 164, 224, 175, 129, 32, 224, 174, 142, 224, 174, 153, 224, 175, 141, 224, 174, 149, 224, 175, 129, 224, 174, 174, 224, 175, 141, 32, 224, 174, 149, 224, 174, 190, 224, 174, 163, 224, 175, 139, 224, 174, 174, 224, 175, 141, 44, 32, 224, 174, 170, 224, 174, 190, 224, 174, 174, 224, 174, 176, 224, 174, 176, 224, 174, 190, 224, 174, 175, 224, 175, 141, 32, 224, 174, 181, 224, 174, 191, 224, 174, 178, 224, 174, 153, 224, 175, 141, 224, 174, 149, 224, 175, 129, 224, 174, 149, 224, 174, 179, 224, 174, 190, 224, 174, 175, 224, 175, 141, 44, 32, 224, 174, 137, 224, 174, 178, 224, 174, 149, 224, 174, 169, 224, 175, 136, 224, 174, 164, 224, 175, 141, 224, 174, 164, 224, 175, 129, 224, 174, 174, 224, 175, 141, 32, 224, 174, 135, 224, 174, 149, 224, 174, 180, 224, 175, 141, 224, 174, 154, 224, 175, 141, 224, 174, 154, 224, 174, 191, 224, 174, 154, 224, 175, 138, 224, 174, 178, 224, 174, 170, 224, 175, 141, 32, 224, 174, 170, 224, 174, 190, 224, 174, 169, 224, 175, 141, 224, 174, 174, 224, 175, 136, 32, 224, 174, 149, 224, 175, 134, 224, 174, 159, 224, 175, 141, 224, 174, 159, 224, 175, 129, 44, 32, 224, 174, 168, 224, 174, 190, 224, 174, 174, 224, 174, 174, 224, 174, 164, 224, 175, 129, 32, 224, 174, 164, 224, 174, 174, 224, 174, 191, 224, 174, 180, 224, 174, 176, 224, 175, 134, 224, 174, 169, 224, 174, 149, 224, 175, 141, 32, 224, 174, 149, 224, 175, 138, 224, 174, 163, 224, 175, 141, 224, 174, 159, 224, 175, 129, 32, 224, 174, 135, 224, 174, 153, 224, 175, 141, 224, 174, 149, 224, 175, 129, 32, 224, 174, 181, 224, 174, 190, 224, 174, 180, 224, 175, 141, 224, 174, 168, 224, 175, 141, 224, 174, 164, 224, 174, 191, 224, 174, 159, 224, 175, 129, 224, 174, 164, 224, 174, 178, 224, 175, 141, 32, 224, 174, 168, 224, 174, 169, 224, 175, 141, 224, 174, 177, 224, 175, 139, 63, 32, 224, 174, 154, 224, 175, 138, 224, 174, 178, 224, 175, 141, 224, 174, 178, 224, 175, 128, 224, 174, 176, 224, 175, 141, 33, 32, 224, 174, 164, 224, 175, 135, 224, 174, 174, 224, 174, 164, 224, 175, 129, 224, 174, 176, 224, 174, 164, 224, 175, 141, 32, 224, 174, 164, 224, 174, 174, 224, 174, 191, 224, 174, 180, 224, 175, 139, 224, 174, 154, 224, 175, 136, 32, 224, 174, 137, 224, 174, 178, 224, 174, 149, 224, 174, 174, 224, 175, 134, 224, 174, 178, 224, 174, 190, 224, 174, 174, 224, 175, 141, 32, 224, 174, 170, 224, 174, 176, 224, 174, 181, 224, 175, 129, 224, 174, 174, 224, 175, 141, 224, 174, 181, 224, 174, 149, 224, 175, 136, 32, 224, 174, 154, 224, 175, 134, 224, 174, 175, 224, 175, 141, 224, 174, 164, 224, 174, 178, 224, 175, 141, 32, 224, 174, 181, 224, 175, 135, 224, 174, 163, 224, 175, 141, 224, 174, 159, 224, 175, 129, 224, 174, 174, 224, 175, 141, 46], .priority 1]) = true := by decide +kernel
/-- rfc5424/machine_test.go:1194 `<1>1 - - - - - - \xef\xbb\xbfS\xc3\xb4n b\xc3\xb4n de magn\xc3\xa0 el v\xc3\xa9der, el me fa minga mal.` -/
example : valid5424 false [60, 49, 62, 49, 32, 45, 32, 45, 32, 45, 32, 45, 32, 45, 32, 45, 32, 239, 187, 191, 83, 195, 180, 110, 32, 98, 195, 180, 110, 32, 100, 101, 32, 109, 97, 103, 110, 195, 160, 32, 101, 108, 32, 118, 195, 169, 100, 101, 114, 44, 32, 101, 108, 32, 109, 101, 32, 102, 97, 32, 109, 105, 110, 103, 97, 32, 109, 97, 108, 46] (built [.version 1, .message [239, 187, 191, 83, 195, 180, 110, 32, 98, 195, 180, 110, 32, 100, 101, 32, 109, 97, 103, 110, 195, 160, 32, 101, 108, 32, 118, 195, 169, 100, 101, 114, 44, 32, 101, 108, 32, 109, 101, 32, 102, 97, 32, 109, 105, 110, 103, 97, 32, 109, 97, 108, 46], .priority 1]) = true := by decide +kernel
/-- rfc5424/machine_test.go:1202 `<1>1 - - - - - - \xef\xbb\xbfMe posso magna' er vetro, e nun me fa male.` -/
example : valid5424 false [60, 49, 62, 49, 32, 45, 32, 45, 32, 45, 32, 45, 32, 45, 32, 45, 32, 239, 187, 191, 77, 101, 32, 112, 111, 115, 115, 111, 32, 109, 97, 103, 110, 97, 39, 32, 101, 114, 32, 118, 101, 116, 114, 111, 44, 32, 101, 32, 110, 117, 110, 32, 109, 101, 32, 102, 97, 32, 109, 97, 108, 101, 46] (built [.version 1, .message [239, 187, 191, 77, 101, 32, 112, 111, 115, 115, 111, 32, 109, 97, 103, 110, 97, 39, 32, 101, 114, 32, 118, 101, 116, 114, 111, 44, 32, 101, 32, 110, 117, 110, 32, 109, 101, 32, 102, 97, 32, 109, 97, 108, 101, 46], .priority 1]) = true := by decide +kernel
/-- rfc5424/machine_test.go:1210 `<1>1 - - - - - - \xef\xbb\xbf\xe2\xa0\x8a\xe2\xa0\x80\xe2\xa0\x89\xe2\xa0\x81\xe2\xa0\x9d\xe2\xa0\x80\xe2\xa0\x91\xe2\xa0\x81\xe2\xa0\x9e\xe2\xa0\x80\xe2\xa0\x9b\xe2\xa0\x87\xe2\xa0\x81\xe2\xa0\x8e\xe2\xa0\x8e\xe2\xa0\x80\xe2\xa0\x81\xe2\xa0\x9d\xe2\xa0\x99\xe2\xa0\x80\xe2\xa0\x8a\xe2\xa0\x9e\xe2\xa0\x80\xe2\xa0\x99\xe2\xa0\x95\xe2\xa0\x91\xe2\xa0\x8e\xe2\xa0\x9d\xe2\xa0\x9e\xe2\xa0\x80\xe2\xa0\x93\xe2\xa0\xa5\xe2\xa0\x97\xe2\xa0\x9e\xe2\xa0\x80\xe2\xa0\x8d\xe2\xa0\x91` -/
example : valid5424 false [60, 49, 62, 49, 32, 45, 32, 45, 32, 45, 32, 45, 32, 45, 32, 45, 32, 239, 187, 191, 226, 160, 138, 226, 160, 128, 226, 160, 137, 226, 160, 129, 226, 160, 157, 226, 160, 128, 226, 160, 145, 226, 160, 129, 226, 160, 158, 226, 160, 128, 226, 160, 155, 226, 160, 135, 226, 160, 129, 226, 160, 142, 226, 160, 142, 226, 160, 128, 226, 160, 129, 226, 160, 157, 226, 160, 153, 226, 160, 128, 226, 160, 138, 226, 160, 158, 226, 160, 128, 226, 160, 153, 226, 160, 149, 226, 160, 145, 226, 160, 142, 226, 160, 157, 226, 160, 158, 226, 160, 128, 226, 160, 147, 226, 160, 165, 226, 160, 151, 226, 160, 158, 226, 160, 128, 226, 160, 141, 226, 160, 145] (built [.version 1, .message [239, 187, 191, 226, 160, 138, 226, 160, 128, 226, 160, 137, 226, 160, 129, 226, 160, 157, 226, 160, 128, 226, 160, 145, 226, 160, 129, 226, 160, 158, 226, 160, 128, 226, 160, 155, 226, 160, 135, 226, 160, 129, 226, 160, 142, 226, 160, 142, 226, 160, 128, 226, 160, 129, 226, 160, 157, 226, 160, 153, 226, 160, 128, 226, 160, 138, 226, 160, 158, 226, 160, 128, 226, 160, 153, 226, 160, 149, 226, 160, 145, 226, 160, 142, 226, 160, 157, 226, 160, 158, 226, 160, 128, 226, 160, 147, 226, 160, 165, 226, 160, 151, 226, 160, 158, 226, 160, 128, 226, 160, 141, 226, 160, 145], .priority 1]) = true := by decide +kernel
/-- rfc5424/machine_test.go:1218 `<1>1 - - - - - - \xef\xbb\xbf\xe0\xa4\x95\xe0\xa4\xbe\xe0\xa4\x9a\xe0\xa4\x82 \xe0\xa4\xb6\xe0\xa4\x95\xe0\xa5\x8d\xe0\xa4\xa8\xe0\xa5\x8b\xe0\xa4\xae\xe0\xa5\x8d\xe0\xa4\xaf\xe0\xa4\xa4\xe0\xa5\x8d\xe0\xa4\xa4\xe0\xa5\x81\xe0\xa4\xae\xe0\xa5\x8d \xe0\xa5\xa4 \xe0\xa4\xa8\xe0\xa5\x8b\xe0\xa4\xaa\xe0\xa4\xb9\xe0\xa4\xbf\xe0\xa4\xa8\xe0\xa4\xb8\xe0\xa5\x8d\xe0\xa4\xa4\xe0\xa4\xbf \xe0\xa4\xae\xe0\xa4\xbe\xe0\xa4\xae\xe0\xa5\x8d \xe0\xa5\xa5` -/
example : valid5424 false [60, 49, 62, 49, 32, 45, 32, 45, 32, 45, 32, 45, 32, 45, 32, 45, 32, 239, 187, 191, 224, 164, 149, 224, 164, 190, 224, 164, 154, 224, 164, 130, 32, 224, 164, 182, 224, 164, 149, 224, 165, 141, 224, 164, 168, 224, 165, 139, 224, 164, 174, 224, 165, 141, 224, 164, 175, 224, 164, 164, 224, 165, 141, 224, 164, 164, 224, 165, 129, 224, 164, 174, 224, 165, 141, 32, 224, 165, 164, 32, 224, 164, 168, 224, 165, 139, 224, 164, 170, 224, 164, 185, 224, 164, 191, 224, 164, 168, 224, 164, 184, 224, 165, 141, 224, 164, 164, 224, 164, 191, 32, 224, 164, 174, 224, 164, 190, 224, 164, 174, 224, 165, 141, 32, 224, 165, 165] (built [.version 1, .message [239, 187, 191, 224, 164, 149, 224, 164, 190, 224, 164, 154, 224, 164, 130, 32, 224, 164, 182, 224, 164, 149, 224, 165, 141, 224, 164, 168, 224, 165, 139, 224, 164, 174, 224, 165, 141, 224, 164, 175, 224, 164, 164, 224, 165, 141, 224, 164, 164, 224, 165, 129, 224, 164, 174, 224, 165, 141, 32, 224, 165, 164, 32, 224, 164, 168, 224, 165, 139, 224, 164, 170, 224, 164, 185, 224, 164, 191, 224, 164, 168, 224, 164, 184, 224, 165, 141, 224, 164, 164, 224, 164, 191, 32, 224, 164, 174, 224, 164, 190, 224, 164, 174, 224, 165, 141, 32, 224, 165, 165], .priority 1]) = true := by decide +kernel
/-- rfc5424/machine_test.go:1226 `<1>1 - - - - - - \xef\xbb\xbf\xd9\x85\xdb\x8c\xda\xba \xda\xa9\xd8\xa7\xd9\x86\xda\x86 \xda\xa9\xda\xbe\xd8\xa7 \xd8\xb3\xda\xa9\xd8\xaa\xd8\xa7 \xdb\x81\xd9\x88\xda\xba \xd8\xa7\xd9\x88\xd8\xb1 \xd9\x85\xd8\xac\xda\xbe\xdb\x92 \xd8\xaa\xda\xa9\xd9\x84\xdb\x8c\xd9\x81 \xd9\x86\xdb\x81\xdb\x8c\xda\xba \xdb\x81\xd9\x88\xd8\xaa\xdb\x8c \xdb\x94` -/
example : valid5424 false [60, 49, 62, 49, 32, 45, 32, 45, 32, 45, 32, 45, 32, 45, 32, 45, 32, 239, 187, 191, 217, 133, 219, 140, 218, 186, 32, 218, 169, 216, 167, 217, 134, 218, 134, 32, 218, 169, 218, 190, 216, 167, 32, 216, 179, 218, 169, 216, 170, 216, 167, 32, 219, 129, 217, 136, 218, 186, 32, 216, 167, 217, 136, 216, 177, 32, 217, 133, 216, 172, 218, 190, 219, 146, 32, 216, 170, 218, 169, 217, 132, 219, 140, 217, 129, 32, 217, 134, 219, 129, 219, 140, 218, 186, 32, 219, 129, 217, 136, 216, 170, 219, 140, 32, 219, 148] (built [.version 1, .message [239, 187, 191, 217, 133, 219, 140, 218, 186, 32, 218, 169, 216, 167, 217, 134, 218, 134, 32, 218, 169, 218, 190, 216, 167, 32, 216, 179, 218, 169, 216, 170, 216, 167, 32, 219, 129, 217, 136, 218, 186, 32, 216, 167, 217, 136, 216, 177, 32, 217, 133, 216, 172, 218, 190, 219, 146, 32, 216, 170, 218, 169, 217, 132, 219, 140, 217, 129, 32, 217, 134, 219, 129, 219, 140, 218, 186, 32, 219, 129, 217, 136, 216, 170, 219, 140, 32, 219, 148], .priority 1]) = true := by decide +kernel

end Verif.Conformance
