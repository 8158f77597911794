import Verif.Fsm

/-!
# Rfc3164: transition table of the Ragel-generated FSM in `rfc3164/machine.go`

GENERATED by `tools/gen.py` from the Go source; do not edit by hand.
start = 1, firstFinal = 333, enFail = 373. `table` is for `m.rfc3339 = false`, `tableR` for `true`.
* `Act`: one constructor per distinct action snippet of the Go code (the snippet is quoted).
* `trN`: the Go label `trN:` (its actions in order, and the state it goes to).
* `rN`: the Go label `stCaseN:` (from-state actions, byte ranges, the `goto` taken by all
  remaining bytes, and the actions of `case N:` in the end-of-input switch).
-/

namespace Verif.Gen.Rfc3164
open Verif.Fsm

/-- Actions embedded in `rfc3164/machine.go`. -/
inductive Act where
  /-- `m.pb = m.p` -/
  | mark
  /-- `output.priority = uint8(common.UnsafeUTF8DecimalCodePointsToInt(m.text())) output.prioritySet = true` -/
  | setPrival
  /-- `if t, e := time.Parse(time.Stamp, string(m.text())); e != nil { m.err = fmt.Errorf("%s [col %d]", e, m.p) (m.p)-- { goto st373 } } else { if m.timezone != nil { t, _ = time.ParseInLocation(time.Stamp, string(m.text()), m.timezone) } output.timestamp = t.AddDate(m.yyyy, 0, 0) if m.loc != nil { output.timestamp = output.timestamp.In(m.loc) } output.timestampSet = true }` -/
  | setTimestamp
  /-- `if t, e := time.Parse(time.RFC3339, string(m.text())); e != nil { m.err = fmt.Errorf("%s [col %d]", e, m.p) (m.p)-- { goto st373 } } else { output.timestamp = t output.timestampSet = true }` -/
  | setRfc3339
  /-- `output.hostname = string(m.text())` -/
  | setHostname
  /-- `output.tag = string(m.text())` -/
  | setTag
  /-- `output.content = string(m.text())` -/
  | setContent
  /-- `output.message = string(m.text())` -/
  | setMessage
  /-- `m.err = fmt.Errorf(errPrival, m.p) (m.p)-- { goto st373 }` -/
  | errPrival
  /-- `m.err = fmt.Errorf(errPri, m.p) (m.p)-- { goto st373 }` -/
  | errPri
  /-- `m.err = fmt.Errorf(errTimestamp, m.p) (m.p)-- { goto st373 }` -/
  | errTimestamp
  /-- `m.err = fmt.Errorf(errRFC3339, m.p) (m.p)-- { goto st373 }` -/
  | errRfc3339
  /-- `m.err = fmt.Errorf(errHostname, m.p) (m.p)-- { goto st373 }` -/
  | errHostname
  /-- `m.err = fmt.Errorf(errTag, m.p) (m.p)-- { goto st373 }` -/
  | errTag
  deriving DecidableEq, Repr

/-- label `stN:` — `if p++; p == pe { goto _testEofN }` then `stCaseN`: no action, go to N. -/
@[reducible] def st (n : Nat) : Label Act := ⟨[], n⟩

/-- rfc3164/machine.go:871 -/
def tr0 : Label Act := ⟨[.errPri], 0⟩
/-- rfc3164/machine.go:881 -/
def tr2 : Label Act := ⟨[.errPrival, .errPri], 0⟩
/-- rfc3164/machine.go:957 -/
def tr3 : Label Act := ⟨[.mark], 3⟩
/-- rfc3164/machine.go:5985 -/
def tr4 : Label Act := ⟨[.mark], 330⟩
/-- rfc3164/machine.go:6009 -/
def tr5 : Label Act := ⟨[.mark], 331⟩
/-- rfc3164/machine.go:898 -/
def tr7 : Label Act := ⟨[.errTimestamp], 0⟩
/-- rfc3164/machine.go:1009 -/
def tr8 : Label Act := ⟨[.mark], 5⟩
/-- rfc3164/machine.go:5254 -/
def tr9 : Label Act := ⟨[.mark], 285⟩
/-- rfc3164/machine.go:5277 -/
def tr10 : Label Act := ⟨[.mark], 287⟩
/-- rfc3164/machine.go:5300 -/
def tr11 : Label Act := ⟨[.mark], 289⟩
/-- rfc3164/machine.go:5338 -/
def tr12 : Label Act := ⟨[.mark], 292⟩
/-- rfc3164/machine.go:5364 -/
def tr13 : Label Act := ⟨[.mark], 294⟩
/-- rfc3164/machine.go:5387 -/
def tr14 : Label Act := ⟨[.mark], 296⟩
/-- rfc3164/machine.go:5410 -/
def tr15 : Label Act := ⟨[.mark], 298⟩
/-- rfc3164/machine.go:5433 -/
def tr16 : Label Act := ⟨[.mark], 300⟩
/-- rfc3164/machine.go:1161 -/
def tr35 : Label Act := ⟨[.setTimestamp], 20⟩
/-- rfc3164/machine.go:908 -/
def tr37 : Label Act := ⟨[.errHostname], 0⟩
/-- rfc3164/machine.go:1206 -/
def tr38 : Label Act := ⟨[.mark], 21⟩
/-- rfc3164/machine.go:1223 -/
def tr39 : Label Act := ⟨[.setHostname], 22⟩
/-- rfc3164/machine.go:918 -/
def tr41 : Label Act := ⟨[.errTag], 0⟩
/-- rfc3164/machine.go:1254 -/
def tr42 : Label Act := ⟨[.mark], 333⟩
/-- rfc3164/machine.go:1271 -/
def tr43 : Label Act := ⟨[.mark], 334⟩
/-- rfc3164/machine.go:2041 -/
def tr45 : Label Act := ⟨[.setContent], 24⟩
/-- rfc3164/machine.go:2085 -/
def tr48 : Label Act := ⟨[.mark], 369⟩
/-- rfc3164/machine.go:2110 -/
def tr49 : Label Act := ⟨[.setContent, .mark], 370⟩
/-- rfc3164/machine.go:928 -/
def tr333 : Label Act := ⟨[.errRfc3339], 0⟩
/-- rfc3164/machine.go:1182 -/
def tr341 : Label Act := ⟨[.setRfc3339], 20⟩
/-- rfc3164/machine.go:1975 -/
def tr347 : Label Act := ⟨[.setTag], 366⟩
/-- rfc3164/machine.go:2007 -/
def tr348 : Label Act := ⟨[.setTag], 368⟩
/-- rfc3164/machine.go:2027 -/
def tr380 : Label Act := ⟨[.mark], 23⟩
/-- rfc3164/machine.go:2117 -/
def tr381 : Label Act := ⟨[.mark, .setContent], 370⟩
/-- rfc3164/machine.go:2105 -/
def tr383 : Label Act := ⟨[.setContent], 370⟩

/-- `st0:` — `cs = 0; goto _out` (never dispatched: the interpreter stops in state 0). -/
def r0 : Row Act := ⟨[], [], st 0, []⟩
/-- rfc3164/machine.go:866, end of input: line 7185 -/
def r1 : Row Act := ⟨[], [(60, 60, st 2)], tr0, [.errPri]⟩
/-- rfc3164/machine.go:946, end of input: line 7230 -/
def r2 : Row Act := ⟨[], [(48, 48, tr3), (49, 49, tr4), (50, 57, tr5)], tr2, [.errPrival, .errPri]⟩
/-- rfc3164/machine.go:966, end of input: line 7230 -/
def r3 : Row Act := ⟨[.setPrival], [(62, 62, st 4)], tr2, [.errPrival, .errPri]⟩
/-- rfc3164/machine.go:979, end of input: line 7194 -/
def r4 : Row Act := ⟨[], [(65, 65, tr8), (68, 68, tr9), (70, 70, tr10), (74, 74, tr11), (77, 77, tr12), (78, 78, tr13), (79, 79, tr14), (83, 83, tr15)], tr7, [.errTimestamp]⟩
/-- rfc3164/machine.go:1018, end of input: line 7194 -/
def r5 : Row Act := ⟨[], [(112, 112, st 6), (117, 117, st 284)], tr7, [.errTimestamp]⟩
/-- rfc3164/machine.go:1030, end of input: line 7194 -/
def r6 : Row Act := ⟨[], [(114, 114, st 7)], tr7, [.errTimestamp]⟩
/-- rfc3164/machine.go:1039, end of input: line 7194 -/
def r7 : Row Act := ⟨[], [(32, 32, st 8)], tr7, [.errTimestamp]⟩
/-- rfc3164/machine.go:1048, end of input: line 7194 -/
def r8 : Row Act := ⟨[], [(32, 32, st 9), (49, 50, st 282), (51, 51, st 283)], tr7, [.errTimestamp]⟩
/-- rfc3164/machine.go:1063, end of input: line 7194 -/
def r9 : Row Act := ⟨[], [(49, 57, st 10)], tr7, [.errTimestamp]⟩
/-- rfc3164/machine.go:1072, end of input: line 7194 -/
def r10 : Row Act := ⟨[], [(32, 32, st 11)], tr7, [.errTimestamp]⟩
/-- rfc3164/machine.go:1081, end of input: line 7194 -/
def r11 : Row Act := ⟨[], [(48, 49, st 12), (50, 50, st 281)], tr7, [.errTimestamp]⟩
/-- rfc3164/machine.go:1093, end of input: line 7194 -/
def r12 : Row Act := ⟨[], [(48, 57, st 13)], tr7, [.errTimestamp]⟩
/-- rfc3164/machine.go:1102, end of input: line 7194 -/
def r13 : Row Act := ⟨[], [(58, 58, st 14)], tr7, [.errTimestamp]⟩
/-- rfc3164/machine.go:1111, end of input: line 7194 -/
def r14 : Row Act := ⟨[], [(48, 53, st 15)], tr7, [.errTimestamp]⟩
/-- rfc3164/machine.go:1120, end of input: line 7194 -/
def r15 : Row Act := ⟨[], [(48, 57, st 16)], tr7, [.errTimestamp]⟩
/-- rfc3164/machine.go:1129, end of input: line 7194 -/
def r16 : Row Act := ⟨[], [(58, 58, st 17)], tr7, [.errTimestamp]⟩
/-- rfc3164/machine.go:1138, end of input: line 7194 -/
def r17 : Row Act := ⟨[], [(48, 53, st 18)], tr7, [.errTimestamp]⟩
/-- rfc3164/machine.go:1147, end of input: line 7194 -/
def r18 : Row Act := ⟨[], [(48, 57, st 19)], tr7, [.errTimestamp]⟩
/-- rfc3164/machine.go:1156 -/
def r19 : Row Act := ⟨[], [(32, 32, tr35)], st 0, []⟩
/-- rfc3164/machine.go:1201, end of input: line 7212 -/
def r20 : Row Act := ⟨[], [(33, 126, tr38)], tr37, [.errHostname]⟩
/-- rfc3164/machine.go:1215, end of input: line 7212 -/
def r21 : Row Act := ⟨[], [(32, 32, tr39), (33, 126, st 27)], tr37, [.errHostname]⟩
/-- rfc3164/machine.go:1232, end of input: line 7221 -/
def r22 : Row Act := ⟨[], [(0, 31, tr41), (33, 57, tr43), (59, 90, tr43), (92, 126, tr43), (127, 127, tr41)], tr42, [.errTag]⟩
/-- rfc3164/machine.go:2036 -/
def r23 : Row Act := ⟨[], [(93, 93, tr45)], st 23, []⟩
/-- rfc3164/machine.go:2050 -/
def r24 : Row Act := ⟨[], [(58, 58, st 25), (93, 93, tr45)], st 23, []⟩
/-- rfc3164/machine.go:2062 -/
def r25 : Row Act := ⟨[], [(32, 32, st 26), (93, 93, tr45)], st 23, []⟩
/-- rfc3164/machine.go:2074 -/
def r26 : Row Act := ⟨[], [(0, 31, st 23), (93, 93, tr49), (127, 127, st 23)], tr48, []⟩
/-- rfc3164/machine.go:2177, end of input: line 7212 -/
def r27 : Row Act := ⟨[], [(32, 32, tr39), (33, 126, st 28)], tr37, [.errHostname]⟩
/-- rfc3164/machine.go:2189, end of input: line 7212 -/
def r28 : Row Act := ⟨[], [(32, 32, tr39), (33, 126, st 29)], tr37, [.errHostname]⟩
/-- rfc3164/machine.go:2201, end of input: line 7212 -/
def r29 : Row Act := ⟨[], [(32, 32, tr39), (33, 126, st 30)], tr37, [.errHostname]⟩
/-- rfc3164/machine.go:2213, end of input: line 7212 -/
def r30 : Row Act := ⟨[], [(32, 32, tr39), (33, 126, st 31)], tr37, [.errHostname]⟩
/-- rfc3164/machine.go:2225, end of input: line 7212 -/
def r31 : Row Act := ⟨[], [(32, 32, tr39), (33, 126, st 32)], tr37, [.errHostname]⟩
/-- rfc3164/machine.go:2237, end of input: line 7212 -/
def r32 : Row Act := ⟨[], [(32, 32, tr39), (33, 126, st 33)], tr37, [.errHostname]⟩
/-- rfc3164/machine.go:2249, end of input: line 7212 -/
def r33 : Row Act := ⟨[], [(32, 32, tr39), (33, 126, st 34)], tr37, [.errHostname]⟩
/-- rfc3164/machine.go:2261, end of input: line 7212 -/
def r34 : Row Act := ⟨[], [(32, 32, tr39), (33, 126, st 35)], tr37, [.errHostname]⟩
/-- rfc3164/machine.go:2273, end of input: line 7212 -/
def r35 : Row Act := ⟨[], [(32, 32, tr39), (33, 126, st 36)], tr37, [.errHostname]⟩
/-- rfc3164/machine.go:2285, end of input: line 7212 -/
def r36 : Row Act := ⟨[], [(32, 32, tr39), (33, 126, st 37)], tr37, [.errHostname]⟩
/-- rfc3164/machine.go:2297, end of input: line 7212 -/
def r37 : Row Act := ⟨[], [(32, 32, tr39), (33, 126, st 38)], tr37, [.errHostname]⟩
/-- rfc3164/machine.go:2309, end of input: line 7212 -/
def r38 : Row Act := ⟨[], [(32, 32, tr39), (33, 126, st 39)], tr37, [.errHostname]⟩
/-- rfc3164/machine.go:2321, end of input: line 7212 -/
def r39 : Row Act := ⟨[], [(32, 32, tr39), (33, 126, st 40)], tr37, [.errHostname]⟩
/-- rfc3164/machine.go:2333, end of input: line 7212 -/
def r40 : Row Act := ⟨[], [(32, 32, tr39), (33, 126, st 41)], tr37, [.errHostname]⟩
/-- rfc3164/machine.go:2345, end of input: line 7212 -/
def r41 : Row Act := ⟨[], [(32, 32, tr39), (33, 126, st 42)], tr37, [.errHostname]⟩
/-- rfc3164/machine.go:2357, end of input: line 7212 -/
def r42 : Row Act := ⟨[], [(32, 32, tr39), (33, 126, st 43)], tr37, [.errHostname]⟩
/-- rfc3164/machine.go:2369, end of input: line 7212 -/
def r43 : Row Act := ⟨[], [(32, 32, tr39), (33, 126, st 44)], tr37, [.errHostname]⟩
/-- rfc3164/machine.go:2381, end of input: line 7212 -/
def r44 : Row Act := ⟨[], [(32, 32, tr39), (33, 126, st 45)], tr37, [.errHostname]⟩
/-- rfc3164/machine.go:2393, end of input: line 7212 -/
def r45 : Row Act := ⟨[], [(32, 32, tr39), (33, 126, st 46)], tr37, [.errHostname]⟩
/-- rfc3164/machine.go:2405, end of input: line 7212 -/
def r46 : Row Act := ⟨[], [(32, 32, tr39), (33, 126, st 47)], tr37, [.errHostname]⟩
/-- rfc3164/machine.go:2417, end of input: line 7212 -/
def r47 : Row Act := ⟨[], [(32, 32, tr39), (33, 126, st 48)], tr37, [.errHostname]⟩
/-- rfc3164/machine.go:2429, end of input: line 7212 -/
def r48 : Row Act := ⟨[], [(32, 32, tr39), (33, 126, st 49)], tr37, [.errHostname]⟩
/-- rfc3164/machine.go:2441, end of input: line 7212 -/
def r49 : Row Act := ⟨[], [(32, 32, tr39), (33, 126, st 50)], tr37, [.errHostname]⟩
/-- rfc3164/machine.go:2453, end of input: line 7212 -/
def r50 : Row Act := ⟨[], [(32, 32, tr39), (33, 126, st 51)], tr37, [.errHostname]⟩
/-- rfc3164/machine.go:2465, end of input: line 7212 -/
def r51 : Row Act := ⟨[], [(32, 32, tr39), (33, 126, st 52)], tr37, [.errHostname]⟩
/-- rfc3164/machine.go:2477, end of input: line 7212 -/
def r52 : Row Act := ⟨[], [(32, 32, tr39), (33, 126, st 53)], tr37, [.errHostname]⟩
/-- rfc3164/machine.go:2489, end of input: line 7212 -/
def r53 : Row Act := ⟨[], [(32, 32, tr39), (33, 126, st 54)], tr37, [.errHostname]⟩
/-- rfc3164/machine.go:2501, end of input: line 7212 -/
def r54 : Row Act := ⟨[], [(32, 32, tr39), (33, 126, st 55)], tr37, [.errHostname]⟩
/-- rfc3164/machine.go:2513, end of input: line 7212 -/
def r55 : Row Act := ⟨[], [(32, 32, tr39), (33, 126, st 56)], tr37, [.errHostname]⟩
/-- rfc3164/machine.go:2525, end of input: line 7212 -/
def r56 : Row Act := ⟨[], [(32, 32, tr39), (33, 126, st 57)], tr37, [.errHostname]⟩
/-- rfc3164/machine.go:2537, end of input: line 7212 -/
def r57 : Row Act := ⟨[], [(32, 32, tr39), (33, 126, st 58)], tr37, [.errHostname]⟩
/-- rfc3164/machine.go:2549, end of input: line 7212 -/
def r58 : Row Act := ⟨[], [(32, 32, tr39), (33, 126, st 59)], tr37, [.errHostname]⟩
/-- rfc3164/machine.go:2561, end of input: line 7212 -/
def r59 : Row Act := ⟨[], [(32, 32, tr39), (33, 126, st 60)], tr37, [.errHostname]⟩
/-- rfc3164/machine.go:2573, end of input: line 7212 -/
def r60 : Row Act := ⟨[], [(32, 32, tr39), (33, 126, st 61)], tr37, [.errHostname]⟩
/-- rfc3164/machine.go:2585, end of input: line 7212 -/
def r61 : Row Act := ⟨[], [(32, 32, tr39), (33, 126, st 62)], tr37, [.errHostname]⟩
/-- rfc3164/machine.go:2597, end of input: line 7212 -/
def r62 : Row Act := ⟨[], [(32, 32, tr39), (33, 126, st 63)], tr37, [.errHostname]⟩
/-- rfc3164/machine.go:2609, end of input: line 7212 -/
def r63 : Row Act := ⟨[], [(32, 32, tr39), (33, 126, st 64)], tr37, [.errHostname]⟩
/-- rfc3164/machine.go:2621, end of input: line 7212 -/
def r64 : Row Act := ⟨[], [(32, 32, tr39), (33, 126, st 65)], tr37, [.errHostname]⟩
/-- rfc3164/machine.go:2633, end of input: line 7212 -/
def r65 : Row Act := ⟨[], [(32, 32, tr39), (33, 126, st 66)], tr37, [.errHostname]⟩
/-- rfc3164/machine.go:2645, end of input: line 7212 -/
def r66 : Row Act := ⟨[], [(32, 32, tr39), (33, 126, st 67)], tr37, [.errHostname]⟩
/-- rfc3164/machine.go:2657, end of input: line 7212 -/
def r67 : Row Act := ⟨[], [(32, 32, tr39), (33, 126, st 68)], tr37, [.errHostname]⟩
/-- rfc3164/machine.go:2669, end of input: line 7212 -/
def r68 : Row Act := ⟨[], [(32, 32, tr39), (33, 126, st 69)], tr37, [.errHostname]⟩
/-- rfc3164/machine.go:2681, end of input: line 7212 -/
def r69 : Row Act := ⟨[], [(32, 32, tr39), (33, 126, st 70)], tr37, [.errHostname]⟩
/-- rfc3164/machine.go:2693, end of input: line 7212 -/
def r70 : Row Act := ⟨[], [(32, 32, tr39), (33, 126, st 71)], tr37, [.errHostname]⟩
/-- rfc3164/machine.go:2705, end of input: line 7212 -/
def r71 : Row Act := ⟨[], [(32, 32, tr39), (33, 126, st 72)], tr37, [.errHostname]⟩
/-- rfc3164/machine.go:2717, end of input: line 7212 -/
def r72 : Row Act := ⟨[], [(32, 32, tr39), (33, 126, st 73)], tr37, [.errHostname]⟩
/-- rfc3164/machine.go:2729, end of input: line 7212 -/
def r73 : Row Act := ⟨[], [(32, 32, tr39), (33, 126, st 74)], tr37, [.errHostname]⟩
/-- rfc3164/machine.go:2741, end of input: line 7212 -/
def r74 : Row Act := ⟨[], [(32, 32, tr39), (33, 126, st 75)], tr37, [.errHostname]⟩
/-- rfc3164/machine.go:2753, end of input: line 7212 -/
def r75 : Row Act := ⟨[], [(32, 32, tr39), (33, 126, st 76)], tr37, [.errHostname]⟩
/-- rfc3164/machine.go:2765, end of input: line 7212 -/
def r76 : Row Act := ⟨[], [(32, 32, tr39), (33, 126, st 77)], tr37, [.errHostname]⟩
/-- rfc3164/machine.go:2777, end of input: line 7212 -/
def r77 : Row Act := ⟨[], [(32, 32, tr39), (33, 126, st 78)], tr37, [.errHostname]⟩
/-- rfc3164/machine.go:2789, end of input: line 7212 -/
def r78 : Row Act := ⟨[], [(32, 32, tr39), (33, 126, st 79)], tr37, [.errHostname]⟩
/-- rfc3164/machine.go:2801, end of input: line 7212 -/
def r79 : Row Act := ⟨[], [(32, 32, tr39), (33, 126, st 80)], tr37, [.errHostname]⟩
/-- rfc3164/machine.go:2813, end of input: line 7212 -/
def r80 : Row Act := ⟨[], [(32, 32, tr39), (33, 126, st 81)], tr37, [.errHostname]⟩
/-- rfc3164/machine.go:2825, end of input: line 7212 -/
def r81 : Row Act := ⟨[], [(32, 32, tr39), (33, 126, st 82)], tr37, [.errHostname]⟩
/-- rfc3164/machine.go:2837, end of input: line 7212 -/
def r82 : Row Act := ⟨[], [(32, 32, tr39), (33, 126, st 83)], tr37, [.errHostname]⟩
/-- rfc3164/machine.go:2849, end of input: line 7212 -/
def r83 : Row Act := ⟨[], [(32, 32, tr39), (33, 126, st 84)], tr37, [.errHostname]⟩
/-- rfc3164/machine.go:2861, end of input: line 7212 -/
def r84 : Row Act := ⟨[], [(32, 32, tr39), (33, 126, st 85)], tr37, [.errHostname]⟩
/-- rfc3164/machine.go:2873, end of input: line 7212 -/
def r85 : Row Act := ⟨[], [(32, 32, tr39), (33, 126, st 86)], tr37, [.errHostname]⟩
/-- rfc3164/machine.go:2885, end of input: line 7212 -/
def r86 : Row Act := ⟨[], [(32, 32, tr39), (33, 126, st 87)], tr37, [.errHostname]⟩
/-- rfc3164/machine.go:2897, end of input: line 7212 -/
def r87 : Row Act := ⟨[], [(32, 32, tr39), (33, 126, st 88)], tr37, [.errHostname]⟩
/-- rfc3164/machine.go:2909, end of input: line 7212 -/
def r88 : Row Act := ⟨[], [(32, 32, tr39), (33, 126, st 89)], tr37, [.errHostname]⟩
/-- rfc3164/machine.go:2921, end of input: line 7212 -/
def r89 : Row Act := ⟨[], [(32, 32, tr39), (33, 126, st 90)], tr37, [.errHostname]⟩
/-- rfc3164/machine.go:2933, end of input: line 7212 -/
def r90 : Row Act := ⟨[], [(32, 32, tr39), (33, 126, st 91)], tr37, [.errHostname]⟩
/-- rfc3164/machine.go:2945, end of input: line 7212 -/
def r91 : Row Act := ⟨[], [(32, 32, tr39), (33, 126, st 92)], tr37, [.errHostname]⟩
/-- rfc3164/machine.go:2957, end of input: line 7212 -/
def r92 : Row Act := ⟨[], [(32, 32, tr39), (33, 126, st 93)], tr37, [.errHostname]⟩
/-- rfc3164/machine.go:2969, end of input: line 7212 -/
def r93 : Row Act := ⟨[], [(32, 32, tr39), (33, 126, st 94)], tr37, [.errHostname]⟩
/-- rfc3164/machine.go:2981, end of input: line 7212 -/
def r94 : Row Act := ⟨[], [(32, 32, tr39), (33, 126, st 95)], tr37, [.errHostname]⟩
/-- rfc3164/machine.go:2993, end of input: line 7212 -/
def r95 : Row Act := ⟨[], [(32, 32, tr39), (33, 126, st 96)], tr37, [.errHostname]⟩
/-- rfc3164/machine.go:3005, end of input: line 7212 -/
def r96 : Row Act := ⟨[], [(32, 32, tr39), (33, 126, st 97)], tr37, [.errHostname]⟩
/-- rfc3164/machine.go:3017, end of input: line 7212 -/
def r97 : Row Act := ⟨[], [(32, 32, tr39), (33, 126, st 98)], tr37, [.errHostname]⟩
/-- rfc3164/machine.go:3029, end of input: line 7212 -/
def r98 : Row Act := ⟨[], [(32, 32, tr39), (33, 126, st 99)], tr37, [.errHostname]⟩
/-- rfc3164/machine.go:3041, end of input: line 7212 -/
def r99 : Row Act := ⟨[], [(32, 32, tr39), (33, 126, st 100)], tr37, [.errHostname]⟩
/-- rfc3164/machine.go:3053, end of input: line 7212 -/
def r100 : Row Act := ⟨[], [(32, 32, tr39), (33, 126, st 101)], tr37, [.errHostname]⟩
/-- rfc3164/machine.go:3065, end of input: line 7212 -/
def r101 : Row Act := ⟨[], [(32, 32, tr39), (33, 126, st 102)], tr37, [.errHostname]⟩
/-- rfc3164/machine.go:3077, end of input: line 7212 -/
def r102 : Row Act := ⟨[], [(32, 32, tr39), (33, 126, st 103)], tr37, [.errHostname]⟩
/-- rfc3164/machine.go:3089, end of input: line 7212 -/
def r103 : Row Act := ⟨[], [(32, 32, tr39), (33, 126, st 104)], tr37, [.errHostname]⟩
/-- rfc3164/machine.go:3101, end of input: line 7212 -/
def r104 : Row Act := ⟨[], [(32, 32, tr39), (33, 126, st 105)], tr37, [.errHostname]⟩
/-- rfc3164/machine.go:3113, end of input: line 7212 -/
def r105 : Row Act := ⟨[], [(32, 32, tr39), (33, 126, st 106)], tr37, [.errHostname]⟩
/-- rfc3164/machine.go:3125, end of input: line 7212 -/
def r106 : Row Act := ⟨[], [(32, 32, tr39), (33, 126, st 107)], tr37, [.errHostname]⟩
/-- rfc3164/machine.go:3137, end of input: line 7212 -/
def r107 : Row Act := ⟨[], [(32, 32, tr39), (33, 126, st 108)], tr37, [.errHostname]⟩
/-- rfc3164/machine.go:3149, end of input: line 7212 -/
def r108 : Row Act := ⟨[], [(32, 32, tr39), (33, 126, st 109)], tr37, [.errHostname]⟩
/-- rfc3164/machine.go:3161, end of input: line 7212 -/
def r109 : Row Act := ⟨[], [(32, 32, tr39), (33, 126, st 110)], tr37, [.errHostname]⟩
/-- rfc3164/machine.go:3173, end of input: line 7212 -/
def r110 : Row Act := ⟨[], [(32, 32, tr39), (33, 126, st 111)], tr37, [.errHostname]⟩
/-- rfc3164/machine.go:3185, end of input: line 7212 -/
def r111 : Row Act := ⟨[], [(32, 32, tr39), (33, 126, st 112)], tr37, [.errHostname]⟩
/-- rfc3164/machine.go:3197, end of input: line 7212 -/
def r112 : Row Act := ⟨[], [(32, 32, tr39), (33, 126, st 113)], tr37, [.errHostname]⟩
/-- rfc3164/machine.go:3209, end of input: line 7212 -/
def r113 : Row Act := ⟨[], [(32, 32, tr39), (33, 126, st 114)], tr37, [.errHostname]⟩
/-- rfc3164/machine.go:3221, end of input: line 7212 -/
def r114 : Row Act := ⟨[], [(32, 32, tr39), (33, 126, st 115)], tr37, [.errHostname]⟩
/-- rfc3164/machine.go:3233, end of input: line 7212 -/
def r115 : Row Act := ⟨[], [(32, 32, tr39), (33, 126, st 116)], tr37, [.errHostname]⟩
/-- rfc3164/machine.go:3245, end of input: line 7212 -/
def r116 : Row Act := ⟨[], [(32, 32, tr39), (33, 126, st 117)], tr37, [.errHostname]⟩
/-- rfc3164/machine.go:3257, end of input: line 7212 -/
def r117 : Row Act := ⟨[], [(32, 32, tr39), (33, 126, st 118)], tr37, [.errHostname]⟩
/-- rfc3164/machine.go:3269, end of input: line 7212 -/
def r118 : Row Act := ⟨[], [(32, 32, tr39), (33, 126, st 119)], tr37, [.errHostname]⟩
/-- rfc3164/machine.go:3281, end of input: line 7212 -/
def r119 : Row Act := ⟨[], [(32, 32, tr39), (33, 126, st 120)], tr37, [.errHostname]⟩
/-- rfc3164/machine.go:3293, end of input: line 7212 -/
def r120 : Row Act := ⟨[], [(32, 32, tr39), (33, 126, st 121)], tr37, [.errHostname]⟩
/-- rfc3164/machine.go:3305, end of input: line 7212 -/
def r121 : Row Act := ⟨[], [(32, 32, tr39), (33, 126, st 122)], tr37, [.errHostname]⟩
/-- rfc3164/machine.go:3317, end of input: line 7212 -/
def r122 : Row Act := ⟨[], [(32, 32, tr39), (33, 126, st 123)], tr37, [.errHostname]⟩
/-- rfc3164/machine.go:3329, end of input: line 7212 -/
def r123 : Row Act := ⟨[], [(32, 32, tr39), (33, 126, st 124)], tr37, [.errHostname]⟩
/-- rfc3164/machine.go:3341, end of input: line 7212 -/
def r124 : Row Act := ⟨[], [(32, 32, tr39), (33, 126, st 125)], tr37, [.errHostname]⟩
/-- rfc3164/machine.go:3353, end of input: line 7212 -/
def r125 : Row Act := ⟨[], [(32, 32, tr39), (33, 126, st 126)], tr37, [.errHostname]⟩
/-- rfc3164/machine.go:3365, end of input: line 7212 -/
def r126 : Row Act := ⟨[], [(32, 32, tr39), (33, 126, st 127)], tr37, [.errHostname]⟩
/-- rfc3164/machine.go:3377, end of input: line 7212 -/
def r127 : Row Act := ⟨[], [(32, 32, tr39), (33, 126, st 128)], tr37, [.errHostname]⟩
/-- rfc3164/machine.go:3389, end of input: line 7212 -/
def r128 : Row Act := ⟨[], [(32, 32, tr39), (33, 126, st 129)], tr37, [.errHostname]⟩
/-- rfc3164/machine.go:3401, end of input: line 7212 -/
def r129 : Row Act := ⟨[], [(32, 32, tr39), (33, 126, st 130)], tr37, [.errHostname]⟩
/-- rfc3164/machine.go:3413, end of input: line 7212 -/
def r130 : Row Act := ⟨[], [(32, 32, tr39), (33, 126, st 131)], tr37, [.errHostname]⟩
/-- rfc3164/machine.go:3425, end of input: line 7212 -/
def r131 : Row Act := ⟨[], [(32, 32, tr39), (33, 126, st 132)], tr37, [.errHostname]⟩
/-- rfc3164/machine.go:3437, end of input: line 7212 -/
def r132 : Row Act := ⟨[], [(32, 32, tr39), (33, 126, st 133)], tr37, [.errHostname]⟩
/-- rfc3164/machine.go:3449, end of input: line 7212 -/
def r133 : Row Act := ⟨[], [(32, 32, tr39), (33, 126, st 134)], tr37, [.errHostname]⟩
/-- rfc3164/machine.go:3461, end of input: line 7212 -/
def r134 : Row Act := ⟨[], [(32, 32, tr39), (33, 126, st 135)], tr37, [.errHostname]⟩
/-- rfc3164/machine.go:3473, end of input: line 7212 -/
def r135 : Row Act := ⟨[], [(32, 32, tr39), (33, 126, st 136)], tr37, [.errHostname]⟩
/-- rfc3164/machine.go:3485, end of input: line 7212 -/
def r136 : Row Act := ⟨[], [(32, 32, tr39), (33, 126, st 137)], tr37, [.errHostname]⟩
/-- rfc3164/machine.go:3497, end of input: line 7212 -/
def r137 : Row Act := ⟨[], [(32, 32, tr39), (33, 126, st 138)], tr37, [.errHostname]⟩
/-- rfc3164/machine.go:3509, end of input: line 7212 -/
def r138 : Row Act := ⟨[], [(32, 32, tr39), (33, 126, st 139)], tr37, [.errHostname]⟩
/-- rfc3164/machine.go:3521, end of input: line 7212 -/
def r139 : Row Act := ⟨[], [(32, 32, tr39), (33, 126, st 140)], tr37, [.errHostname]⟩
/-- rfc3164/machine.go:3533, end of input: line 7212 -/
def r140 : Row Act := ⟨[], [(32, 32, tr39), (33, 126, st 141)], tr37, [.errHostname]⟩
/-- rfc3164/machine.go:3545, end of input: line 7212 -/
def r141 : Row Act := ⟨[], [(32, 32, tr39), (33, 126, st 142)], tr37, [.errHostname]⟩
/-- rfc3164/machine.go:3557, end of input: line 7212 -/
def r142 : Row Act := ⟨[], [(32, 32, tr39), (33, 126, st 143)], tr37, [.errHostname]⟩
/-- rfc3164/machine.go:3569, end of input: line 7212 -/
def r143 : Row Act := ⟨[], [(32, 32, tr39), (33, 126, st 144)], tr37, [.errHostname]⟩
/-- rfc3164/machine.go:3581, end of input: line 7212 -/
def r144 : Row Act := ⟨[], [(32, 32, tr39), (33, 126, st 145)], tr37, [.errHostname]⟩
/-- rfc3164/machine.go:3593, end of input: line 7212 -/
def r145 : Row Act := ⟨[], [(32, 32, tr39), (33, 126, st 146)], tr37, [.errHostname]⟩
/-- rfc3164/machine.go:3605, end of input: line 7212 -/
def r146 : Row Act := ⟨[], [(32, 32, tr39), (33, 126, st 147)], tr37, [.errHostname]⟩
/-- rfc3164/machine.go:3617, end of input: line 7212 -/
def r147 : Row Act := ⟨[], [(32, 32, tr39), (33, 126, st 148)], tr37, [.errHostname]⟩
/-- rfc3164/machine.go:3629, end of input: line 7212 -/
def r148 : Row Act := ⟨[], [(32, 32, tr39), (33, 126, st 149)], tr37, [.errHostname]⟩
/-- rfc3164/machine.go:3641, end of input: line 7212 -/
def r149 : Row Act := ⟨[], [(32, 32, tr39), (33, 126, st 150)], tr37, [.errHostname]⟩
/-- rfc3164/machine.go:3653, end of input: line 7212 -/
def r150 : Row Act := ⟨[], [(32, 32, tr39), (33, 126, st 151)], tr37, [.errHostname]⟩
/-- rfc3164/machine.go:3665, end of input: line 7212 -/
def r151 : Row Act := ⟨[], [(32, 32, tr39), (33, 126, st 152)], tr37, [.errHostname]⟩
/-- rfc3164/machine.go:3677, end of input: line 7212 -/
def r152 : Row Act := ⟨[], [(32, 32, tr39), (33, 126, st 153)], tr37, [.errHostname]⟩
/-- rfc3164/machine.go:3689, end of input: line 7212 -/
def r153 : Row Act := ⟨[], [(32, 32, tr39), (33, 126, st 154)], tr37, [.errHostname]⟩
/-- rfc3164/machine.go:3701, end of input: line 7212 -/
def r154 : Row Act := ⟨[], [(32, 32, tr39), (33, 126, st 155)], tr37, [.errHostname]⟩
/-- rfc3164/machine.go:3713, end of input: line 7212 -/
def r155 : Row Act := ⟨[], [(32, 32, tr39), (33, 126, st 156)], tr37, [.errHostname]⟩
/-- rfc3164/machine.go:3725, end of input: line 7212 -/
def r156 : Row Act := ⟨[], [(32, 32, tr39), (33, 126, st 157)], tr37, [.errHostname]⟩
/-- rfc3164/machine.go:3737, end of input: line 7212 -/
def r157 : Row Act := ⟨[], [(32, 32, tr39), (33, 126, st 158)], tr37, [.errHostname]⟩
/-- rfc3164/machine.go:3749, end of input: line 7212 -/
def r158 : Row Act := ⟨[], [(32, 32, tr39), (33, 126, st 159)], tr37, [.errHostname]⟩
/-- rfc3164/machine.go:3761, end of input: line 7212 -/
def r159 : Row Act := ⟨[], [(32, 32, tr39), (33, 126, st 160)], tr37, [.errHostname]⟩
/-- rfc3164/machine.go:3773, end of input: line 7212 -/
def r160 : Row Act := ⟨[], [(32, 32, tr39), (33, 126, st 161)], tr37, [.errHostname]⟩
/-- rfc3164/machine.go:3785, end of input: line 7212 -/
def r161 : Row Act := ⟨[], [(32, 32, tr39), (33, 126, st 162)], tr37, [.errHostname]⟩
/-- rfc3164/machine.go:3797, end of input: line 7212 -/
def r162 : Row Act := ⟨[], [(32, 32, tr39), (33, 126, st 163)], tr37, [.errHostname]⟩
/-- rfc3164/machine.go:3809, end of input: line 7212 -/
def r163 : Row Act := ⟨[], [(32, 32, tr39), (33, 126, st 164)], tr37, [.errHostname]⟩
/-- rfc3164/machine.go:3821, end of input: line 7212 -/
def r164 : Row Act := ⟨[], [(32, 32, tr39), (33, 126, st 165)], tr37, [.errHostname]⟩
/-- rfc3164/machine.go:3833, end of input: line 7212 -/
def r165 : Row Act := ⟨[], [(32, 32, tr39), (33, 126, st 166)], tr37, [.errHostname]⟩
/-- rfc3164/machine.go:3845, end of input: line 7212 -/
def r166 : Row Act := ⟨[], [(32, 32, tr39), (33, 126, st 167)], tr37, [.errHostname]⟩
/-- rfc3164/machine.go:3857, end of input: line 7212 -/
def r167 : Row Act := ⟨[], [(32, 32, tr39), (33, 126, st 168)], tr37, [.errHostname]⟩
/-- rfc3164/machine.go:3869, end of input: line 7212 -/
def r168 : Row Act := ⟨[], [(32, 32, tr39), (33, 126, st 169)], tr37, [.errHostname]⟩
/-- rfc3164/machine.go:3881, end of input: line 7212 -/
def r169 : Row Act := ⟨[], [(32, 32, tr39), (33, 126, st 170)], tr37, [.errHostname]⟩
/-- rfc3164/machine.go:3893, end of input: line 7212 -/
def r170 : Row Act := ⟨[], [(32, 32, tr39), (33, 126, st 171)], tr37, [.errHostname]⟩
/-- rfc3164/machine.go:3905, end of input: line 7212 -/
def r171 : Row Act := ⟨[], [(32, 32, tr39), (33, 126, st 172)], tr37, [.errHostname]⟩
/-- rfc3164/machine.go:3917, end of input: line 7212 -/
def r172 : Row Act := ⟨[], [(32, 32, tr39), (33, 126, st 173)], tr37, [.errHostname]⟩
/-- rfc3164/machine.go:3929, end of input: line 7212 -/
def r173 : Row Act := ⟨[], [(32, 32, tr39), (33, 126, st 174)], tr37, [.errHostname]⟩
/-- rfc3164/machine.go:3941, end of input: line 7212 -/
def r174 : Row Act := ⟨[], [(32, 32, tr39), (33, 126, st 175)], tr37, [.errHostname]⟩
/-- rfc3164/machine.go:3953, end of input: line 7212 -/
def r175 : Row Act := ⟨[], [(32, 32, tr39), (33, 126, st 176)], tr37, [.errHostname]⟩
/-- rfc3164/machine.go:3965, end of input: line 7212 -/
def r176 : Row Act := ⟨[], [(32, 32, tr39), (33, 126, st 177)], tr37, [.errHostname]⟩
/-- rfc3164/machine.go:3977, end of input: line 7212 -/
def r177 : Row Act := ⟨[], [(32, 32, tr39), (33, 126, st 178)], tr37, [.errHostname]⟩
/-- rfc3164/machine.go:3989, end of input: line 7212 -/
def r178 : Row Act := ⟨[], [(32, 32, tr39), (33, 126, st 179)], tr37, [.errHostname]⟩
/-- rfc3164/machine.go:4001, end of input: line 7212 -/
def r179 : Row Act := ⟨[], [(32, 32, tr39), (33, 126, st 180)], tr37, [.errHostname]⟩
/-- rfc3164/machine.go:4013, end of input: line 7212 -/
def r180 : Row Act := ⟨[], [(32, 32, tr39), (33, 126, st 181)], tr37, [.errHostname]⟩
/-- rfc3164/machine.go:4025, end of input: line 7212 -/
def r181 : Row Act := ⟨[], [(32, 32, tr39), (33, 126, st 182)], tr37, [.errHostname]⟩
/-- rfc3164/machine.go:4037, end of input: line 7212 -/
def r182 : Row Act := ⟨[], [(32, 32, tr39), (33, 126, st 183)], tr37, [.errHostname]⟩
/-- rfc3164/machine.go:4049, end of input: line 7212 -/
def r183 : Row Act := ⟨[], [(32, 32, tr39), (33, 126, st 184)], tr37, [.errHostname]⟩
/-- rfc3164/machine.go:4061, end of input: line 7212 -/
def r184 : Row Act := ⟨[], [(32, 32, tr39), (33, 126, st 185)], tr37, [.errHostname]⟩
/-- rfc3164/machine.go:4073, end of input: line 7212 -/
def r185 : Row Act := ⟨[], [(32, 32, tr39), (33, 126, st 186)], tr37, [.errHostname]⟩
/-- rfc3164/machine.go:4085, end of input: line 7212 -/
def r186 : Row Act := ⟨[], [(32, 32, tr39), (33, 126, st 187)], tr37, [.errHostname]⟩
/-- rfc3164/machine.go:4097, end of input: line 7212 -/
def r187 : Row Act := ⟨[], [(32, 32, tr39), (33, 126, st 188)], tr37, [.errHostname]⟩
/-- rfc3164/machine.go:4109, end of input: line 7212 -/
def r188 : Row Act := ⟨[], [(32, 32, tr39), (33, 126, st 189)], tr37, [.errHostname]⟩
/-- rfc3164/machine.go:4121, end of input: line 7212 -/
def r189 : Row Act := ⟨[], [(32, 32, tr39), (33, 126, st 190)], tr37, [.errHostname]⟩
/-- rfc3164/machine.go:4133, end of input: line 7212 -/
def r190 : Row Act := ⟨[], [(32, 32, tr39), (33, 126, st 191)], tr37, [.errHostname]⟩
/-- rfc3164/machine.go:4145, end of input: line 7212 -/
def r191 : Row Act := ⟨[], [(32, 32, tr39), (33, 126, st 192)], tr37, [.errHostname]⟩
/-- rfc3164/machine.go:4157, end of input: line 7212 -/
def r192 : Row Act := ⟨[], [(32, 32, tr39), (33, 126, st 193)], tr37, [.errHostname]⟩
/-- rfc3164/machine.go:4169, end of input: line 7212 -/
def r193 : Row Act := ⟨[], [(32, 32, tr39), (33, 126, st 194)], tr37, [.errHostname]⟩
/-- rfc3164/machine.go:4181, end of input: line 7212 -/
def r194 : Row Act := ⟨[], [(32, 32, tr39), (33, 126, st 195)], tr37, [.errHostname]⟩
/-- rfc3164/machine.go:4193, end of input: line 7212 -/
def r195 : Row Act := ⟨[], [(32, 32, tr39), (33, 126, st 196)], tr37, [.errHostname]⟩
/-- rfc3164/machine.go:4205, end of input: line 7212 -/
def r196 : Row Act := ⟨[], [(32, 32, tr39), (33, 126, st 197)], tr37, [.errHostname]⟩
/-- rfc3164/machine.go:4217, end of input: line 7212 -/
def r197 : Row Act := ⟨[], [(32, 32, tr39), (33, 126, st 198)], tr37, [.errHostname]⟩
/-- rfc3164/machine.go:4229, end of input: line 7212 -/
def r198 : Row Act := ⟨[], [(32, 32, tr39), (33, 126, st 199)], tr37, [.errHostname]⟩
/-- rfc3164/machine.go:4241, end of input: line 7212 -/
def r199 : Row Act := ⟨[], [(32, 32, tr39), (33, 126, st 200)], tr37, [.errHostname]⟩
/-- rfc3164/machine.go:4253, end of input: line 7212 -/
def r200 : Row Act := ⟨[], [(32, 32, tr39), (33, 126, st 201)], tr37, [.errHostname]⟩
/-- rfc3164/machine.go:4265, end of input: line 7212 -/
def r201 : Row Act := ⟨[], [(32, 32, tr39), (33, 126, st 202)], tr37, [.errHostname]⟩
/-- rfc3164/machine.go:4277, end of input: line 7212 -/
def r202 : Row Act := ⟨[], [(32, 32, tr39), (33, 126, st 203)], tr37, [.errHostname]⟩
/-- rfc3164/machine.go:4289, end of input: line 7212 -/
def r203 : Row Act := ⟨[], [(32, 32, tr39), (33, 126, st 204)], tr37, [.errHostname]⟩
/-- rfc3164/machine.go:4301, end of input: line 7212 -/
def r204 : Row Act := ⟨[], [(32, 32, tr39), (33, 126, st 205)], tr37, [.errHostname]⟩
/-- rfc3164/machine.go:4313, end of input: line 7212 -/
def r205 : Row Act := ⟨[], [(32, 32, tr39), (33, 126, st 206)], tr37, [.errHostname]⟩
/-- rfc3164/machine.go:4325, end of input: line 7212 -/
def r206 : Row Act := ⟨[], [(32, 32, tr39), (33, 126, st 207)], tr37, [.errHostname]⟩
/-- rfc3164/machine.go:4337, end of input: line 7212 -/
def r207 : Row Act := ⟨[], [(32, 32, tr39), (33, 126, st 208)], tr37, [.errHostname]⟩
/-- rfc3164/machine.go:4349, end of input: line 7212 -/
def r208 : Row Act := ⟨[], [(32, 32, tr39), (33, 126, st 209)], tr37, [.errHostname]⟩
/-- rfc3164/machine.go:4361, end of input: line 7212 -/
def r209 : Row Act := ⟨[], [(32, 32, tr39), (33, 126, st 210)], tr37, [.errHostname]⟩
/-- rfc3164/machine.go:4373, end of input: line 7212 -/
def r210 : Row Act := ⟨[], [(32, 32, tr39), (33, 126, st 211)], tr37, [.errHostname]⟩
/-- rfc3164/machine.go:4385, end of input: line 7212 -/
def r211 : Row Act := ⟨[], [(32, 32, tr39), (33, 126, st 212)], tr37, [.errHostname]⟩
/-- rfc3164/machine.go:4397, end of input: line 7212 -/
def r212 : Row Act := ⟨[], [(32, 32, tr39), (33, 126, st 213)], tr37, [.errHostname]⟩
/-- rfc3164/machine.go:4409, end of input: line 7212 -/
def r213 : Row Act := ⟨[], [(32, 32, tr39), (33, 126, st 214)], tr37, [.errHostname]⟩
/-- rfc3164/machine.go:4421, end of input: line 7212 -/
def r214 : Row Act := ⟨[], [(32, 32, tr39), (33, 126, st 215)], tr37, [.errHostname]⟩
/-- rfc3164/machine.go:4433, end of input: line 7212 -/
def r215 : Row Act := ⟨[], [(32, 32, tr39), (33, 126, st 216)], tr37, [.errHostname]⟩
/-- rfc3164/machine.go:4445, end of input: line 7212 -/
def r216 : Row Act := ⟨[], [(32, 32, tr39), (33, 126, st 217)], tr37, [.errHostname]⟩
/-- rfc3164/machine.go:4457, end of input: line 7212 -/
def r217 : Row Act := ⟨[], [(32, 32, tr39), (33, 126, st 218)], tr37, [.errHostname]⟩
/-- rfc3164/machine.go:4469, end of input: line 7212 -/
def r218 : Row Act := ⟨[], [(32, 32, tr39), (33, 126, st 219)], tr37, [.errHostname]⟩
/-- rfc3164/machine.go:4481, end of input: line 7212 -/
def r219 : Row Act := ⟨[], [(32, 32, tr39), (33, 126, st 220)], tr37, [.errHostname]⟩
/-- rfc3164/machine.go:4493, end of input: line 7212 -/
def r220 : Row Act := ⟨[], [(32, 32, tr39), (33, 126, st 221)], tr37, [.errHostname]⟩
/-- rfc3164/machine.go:4505, end of input: line 7212 -/
def r221 : Row Act := ⟨[], [(32, 32, tr39), (33, 126, st 222)], tr37, [.errHostname]⟩
/-- rfc3164/machine.go:4517, end of input: line 7212 -/
def r222 : Row Act := ⟨[], [(32, 32, tr39), (33, 126, st 223)], tr37, [.errHostname]⟩
/-- rfc3164/machine.go:4529, end of input: line 7212 -/
def r223 : Row Act := ⟨[], [(32, 32, tr39), (33, 126, st 224)], tr37, [.errHostname]⟩
/-- rfc3164/machine.go:4541, end of input: line 7212 -/
def r224 : Row Act := ⟨[], [(32, 32, tr39), (33, 126, st 225)], tr37, [.errHostname]⟩
/-- rfc3164/machine.go:4553, end of input: line 7212 -/
def r225 : Row Act := ⟨[], [(32, 32, tr39), (33, 126, st 226)], tr37, [.errHostname]⟩
/-- rfc3164/machine.go:4565, end of input: line 7212 -/
def r226 : Row Act := ⟨[], [(32, 32, tr39), (33, 126, st 227)], tr37, [.errHostname]⟩
/-- rfc3164/machine.go:4577, end of input: line 7212 -/
def r227 : Row Act := ⟨[], [(32, 32, tr39), (33, 126, st 228)], tr37, [.errHostname]⟩
/-- rfc3164/machine.go:4589, end of input: line 7212 -/
def r228 : Row Act := ⟨[], [(32, 32, tr39), (33, 126, st 229)], tr37, [.errHostname]⟩
/-- rfc3164/machine.go:4601, end of input: line 7212 -/
def r229 : Row Act := ⟨[], [(32, 32, tr39), (33, 126, st 230)], tr37, [.errHostname]⟩
/-- rfc3164/machine.go:4613, end of input: line 7212 -/
def r230 : Row Act := ⟨[], [(32, 32, tr39), (33, 126, st 231)], tr37, [.errHostname]⟩
/-- rfc3164/machine.go:4625, end of input: line 7212 -/
def r231 : Row Act := ⟨[], [(32, 32, tr39), (33, 126, st 232)], tr37, [.errHostname]⟩
/-- rfc3164/machine.go:4637, end of input: line 7212 -/
def r232 : Row Act := ⟨[], [(32, 32, tr39), (33, 126, st 233)], tr37, [.errHostname]⟩
/-- rfc3164/machine.go:4649, end of input: line 7212 -/
def r233 : Row Act := ⟨[], [(32, 32, tr39), (33, 126, st 234)], tr37, [.errHostname]⟩
/-- rfc3164/machine.go:4661, end of input: line 7212 -/
def r234 : Row Act := ⟨[], [(32, 32, tr39), (33, 126, st 235)], tr37, [.errHostname]⟩
/-- rfc3164/machine.go:4673, end of input: line 7212 -/
def r235 : Row Act := ⟨[], [(32, 32, tr39), (33, 126, st 236)], tr37, [.errHostname]⟩
/-- rfc3164/machine.go:4685, end of input: line 7212 -/
def r236 : Row Act := ⟨[], [(32, 32, tr39), (33, 126, st 237)], tr37, [.errHostname]⟩
/-- rfc3164/machine.go:4697, end of input: line 7212 -/
def r237 : Row Act := ⟨[], [(32, 32, tr39), (33, 126, st 238)], tr37, [.errHostname]⟩
/-- rfc3164/machine.go:4709, end of input: line 7212 -/
def r238 : Row Act := ⟨[], [(32, 32, tr39), (33, 126, st 239)], tr37, [.errHostname]⟩
/-- rfc3164/machine.go:4721, end of input: line 7212 -/
def r239 : Row Act := ⟨[], [(32, 32, tr39), (33, 126, st 240)], tr37, [.errHostname]⟩
/-- rfc3164/machine.go:4733, end of input: line 7212 -/
def r240 : Row Act := ⟨[], [(32, 32, tr39), (33, 126, st 241)], tr37, [.errHostname]⟩
/-- rfc3164/machine.go:4745, end of input: line 7212 -/
def r241 : Row Act := ⟨[], [(32, 32, tr39), (33, 126, st 242)], tr37, [.errHostname]⟩
/-- rfc3164/machine.go:4757, end of input: line 7212 -/
def r242 : Row Act := ⟨[], [(32, 32, tr39), (33, 126, st 243)], tr37, [.errHostname]⟩
/-- rfc3164/machine.go:4769, end of input: line 7212 -/
def r243 : Row Act := ⟨[], [(32, 32, tr39), (33, 126, st 244)], tr37, [.errHostname]⟩
/-- rfc3164/machine.go:4781, end of input: line 7212 -/
def r244 : Row Act := ⟨[], [(32, 32, tr39), (33, 126, st 245)], tr37, [.errHostname]⟩
/-- rfc3164/machine.go:4793, end of input: line 7212 -/
def r245 : Row Act := ⟨[], [(32, 32, tr39), (33, 126, st 246)], tr37, [.errHostname]⟩
/-- rfc3164/machine.go:4805, end of input: line 7212 -/
def r246 : Row Act := ⟨[], [(32, 32, tr39), (33, 126, st 247)], tr37, [.errHostname]⟩
/-- rfc3164/machine.go:4817, end of input: line 7212 -/
def r247 : Row Act := ⟨[], [(32, 32, tr39), (33, 126, st 248)], tr37, [.errHostname]⟩
/-- rfc3164/machine.go:4829, end of input: line 7212 -/
def r248 : Row Act := ⟨[], [(32, 32, tr39), (33, 126, st 249)], tr37, [.errHostname]⟩
/-- rfc3164/machine.go:4841, end of input: line 7212 -/
def r249 : Row Act := ⟨[], [(32, 32, tr39), (33, 126, st 250)], tr37, [.errHostname]⟩
/-- rfc3164/machine.go:4853, end of input: line 7212 -/
def r250 : Row Act := ⟨[], [(32, 32, tr39), (33, 126, st 251)], tr37, [.errHostname]⟩
/-- rfc3164/machine.go:4865, end of input: line 7212 -/
def r251 : Row Act := ⟨[], [(32, 32, tr39), (33, 126, st 252)], tr37, [.errHostname]⟩
/-- rfc3164/machine.go:4877, end of input: line 7212 -/
def r252 : Row Act := ⟨[], [(32, 32, tr39), (33, 126, st 253)], tr37, [.errHostname]⟩
/-- rfc3164/machine.go:4889, end of input: line 7212 -/
def r253 : Row Act := ⟨[], [(32, 32, tr39), (33, 126, st 254)], tr37, [.errHostname]⟩
/-- rfc3164/machine.go:4901, end of input: line 7212 -/
def r254 : Row Act := ⟨[], [(32, 32, tr39), (33, 126, st 255)], tr37, [.errHostname]⟩
/-- rfc3164/machine.go:4913, end of input: line 7212 -/
def r255 : Row Act := ⟨[], [(32, 32, tr39), (33, 126, st 256)], tr37, [.errHostname]⟩
/-- rfc3164/machine.go:4925, end of input: line 7212 -/
def r256 : Row Act := ⟨[], [(32, 32, tr39), (33, 126, st 257)], tr37, [.errHostname]⟩
/-- rfc3164/machine.go:4937, end of input: line 7212 -/
def r257 : Row Act := ⟨[], [(32, 32, tr39), (33, 126, st 258)], tr37, [.errHostname]⟩
/-- rfc3164/machine.go:4949, end of input: line 7212 -/
def r258 : Row Act := ⟨[], [(32, 32, tr39), (33, 126, st 259)], tr37, [.errHostname]⟩
/-- rfc3164/machine.go:4961, end of input: line 7212 -/
def r259 : Row Act := ⟨[], [(32, 32, tr39), (33, 126, st 260)], tr37, [.errHostname]⟩
/-- rfc3164/machine.go:4973, end of input: line 7212 -/
def r260 : Row Act := ⟨[], [(32, 32, tr39), (33, 126, st 261)], tr37, [.errHostname]⟩
/-- rfc3164/machine.go:4985, end of input: line 7212 -/
def r261 : Row Act := ⟨[], [(32, 32, tr39), (33, 126, st 262)], tr37, [.errHostname]⟩
/-- rfc3164/machine.go:4997, end of input: line 7212 -/
def r262 : Row Act := ⟨[], [(32, 32, tr39), (33, 126, st 263)], tr37, [.errHostname]⟩
/-- rfc3164/machine.go:5009, end of input: line 7212 -/
def r263 : Row Act := ⟨[], [(32, 32, tr39), (33, 126, st 264)], tr37, [.errHostname]⟩
/-- rfc3164/machine.go:5021, end of input: line 7212 -/
def r264 : Row Act := ⟨[], [(32, 32, tr39), (33, 126, st 265)], tr37, [.errHostname]⟩
/-- rfc3164/machine.go:5033, end of input: line 7212 -/
def r265 : Row Act := ⟨[], [(32, 32, tr39), (33, 126, st 266)], tr37, [.errHostname]⟩
/-- rfc3164/machine.go:5045, end of input: line 7212 -/
def r266 : Row Act := ⟨[], [(32, 32, tr39), (33, 126, st 267)], tr37, [.errHostname]⟩
/-- rfc3164/machine.go:5057, end of input: line 7212 -/
def r267 : Row Act := ⟨[], [(32, 32, tr39), (33, 126, st 268)], tr37, [.errHostname]⟩
/-- rfc3164/machine.go:5069, end of input: line 7212 -/
def r268 : Row Act := ⟨[], [(32, 32, tr39), (33, 126, st 269)], tr37, [.errHostname]⟩
/-- rfc3164/machine.go:5081, end of input: line 7212 -/
def r269 : Row Act := ⟨[], [(32, 32, tr39), (33, 126, st 270)], tr37, [.errHostname]⟩
/-- rfc3164/machine.go:5093, end of input: line 7212 -/
def r270 : Row Act := ⟨[], [(32, 32, tr39), (33, 126, st 271)], tr37, [.errHostname]⟩
/-- rfc3164/machine.go:5105, end of input: line 7212 -/
def r271 : Row Act := ⟨[], [(32, 32, tr39), (33, 126, st 272)], tr37, [.errHostname]⟩
/-- rfc3164/machine.go:5117, end of input: line 7212 -/
def r272 : Row Act := ⟨[], [(32, 32, tr39), (33, 126, st 273)], tr37, [.errHostname]⟩
/-- rfc3164/machine.go:5129, end of input: line 7212 -/
def r273 : Row Act := ⟨[], [(32, 32, tr39), (33, 126, st 274)], tr37, [.errHostname]⟩
/-- rfc3164/machine.go:5141, end of input: line 7212 -/
def r274 : Row Act := ⟨[], [(32, 32, tr39), (33, 126, st 275)], tr37, [.errHostname]⟩
/-- rfc3164/machine.go:5153, end of input: line 7212 -/
def r275 : Row Act := ⟨[], [(32, 32, tr39), (33, 126, st 276)], tr37, [.errHostname]⟩
/-- rfc3164/machine.go:5165, end of input: line 7212 -/
def r276 : Row Act := ⟨[], [(32, 32, tr39), (33, 126, st 277)], tr37, [.errHostname]⟩
/-- rfc3164/machine.go:5177, end of input: line 7212 -/
def r277 : Row Act := ⟨[], [(32, 32, tr39), (33, 126, st 278)], tr37, [.errHostname]⟩
/-- rfc3164/machine.go:5189, end of input: line 7212 -/
def r278 : Row Act := ⟨[], [(32, 32, tr39), (33, 126, st 279)], tr37, [.errHostname]⟩
/-- rfc3164/machine.go:5201, end of input: line 7212 -/
def r279 : Row Act := ⟨[], [(32, 32, tr39), (33, 126, st 280)], tr37, [.errHostname]⟩
/-- rfc3164/machine.go:5213, end of input: line 7212 -/
def r280 : Row Act := ⟨[], [(32, 32, tr39)], tr37, [.errHostname]⟩
/-- rfc3164/machine.go:5222, end of input: line 7194 -/
def r281 : Row Act := ⟨[], [(48, 51, st 13)], tr7, [.errTimestamp]⟩
/-- rfc3164/machine.go:5231, end of input: line 7194 -/
def r282 : Row Act := ⟨[], [(48, 57, st 10)], tr7, [.errTimestamp]⟩
/-- rfc3164/machine.go:5240, end of input: line 7194 -/
def r283 : Row Act := ⟨[], [(48, 49, st 10)], tr7, [.errTimestamp]⟩
/-- rfc3164/machine.go:5249, end of input: line 7194 -/
def r284 : Row Act := ⟨[], [(103, 103, st 7)], tr7, [.errTimestamp]⟩
/-- rfc3164/machine.go:5263, end of input: line 7194 -/
def r285 : Row Act := ⟨[], [(101, 101, st 286)], tr7, [.errTimestamp]⟩
/-- rfc3164/machine.go:5272, end of input: line 7194 -/
def r286 : Row Act := ⟨[], [(99, 99, st 7)], tr7, [.errTimestamp]⟩
/-- rfc3164/machine.go:5286, end of input: line 7194 -/
def r287 : Row Act := ⟨[], [(101, 101, st 288)], tr7, [.errTimestamp]⟩
/-- rfc3164/machine.go:5295, end of input: line 7194 -/
def r288 : Row Act := ⟨[], [(98, 98, st 7)], tr7, [.errTimestamp]⟩
/-- rfc3164/machine.go:5309, end of input: line 7194 -/
def r289 : Row Act := ⟨[], [(97, 97, st 290), (117, 117, st 291)], tr7, [.errTimestamp]⟩
/-- rfc3164/machine.go:5321, end of input: line 7194 -/
def r290 : Row Act := ⟨[], [(110, 110, st 7)], tr7, [.errTimestamp]⟩
/-- rfc3164/machine.go:5330, end of input: line 7194 -/
def r291 : Row Act := ⟨[], [(108, 108, st 7), (110, 110, st 7)], tr7, [.errTimestamp]⟩
/-- rfc3164/machine.go:5347, end of input: line 7194 -/
def r292 : Row Act := ⟨[], [(97, 97, st 293)], tr7, [.errTimestamp]⟩
/-- rfc3164/machine.go:5356, end of input: line 7194 -/
def r293 : Row Act := ⟨[], [(114, 114, st 7), (121, 121, st 7)], tr7, [.errTimestamp]⟩
/-- rfc3164/machine.go:5373, end of input: line 7194 -/
def r294 : Row Act := ⟨[], [(111, 111, st 295)], tr7, [.errTimestamp]⟩
/-- rfc3164/machine.go:5382, end of input: line 7194 -/
def r295 : Row Act := ⟨[], [(118, 118, st 7)], tr7, [.errTimestamp]⟩
/-- rfc3164/machine.go:5396, end of input: line 7194 -/
def r296 : Row Act := ⟨[], [(99, 99, st 297)], tr7, [.errTimestamp]⟩
/-- rfc3164/machine.go:5405, end of input: line 7194 -/
def r297 : Row Act := ⟨[], [(116, 116, st 7)], tr7, [.errTimestamp]⟩
/-- rfc3164/machine.go:5419, end of input: line 7194 -/
def r298 : Row Act := ⟨[], [(101, 101, st 299)], tr7, [.errTimestamp]⟩
/-- rfc3164/machine.go:5428, end of input: line 7194 -/
def r299 : Row Act := ⟨[], [(112, 112, st 7)], tr7, [.errTimestamp]⟩
/-- rfc3164/machine.go:5442 -/
def r300 : Row Act := ⟨[], [], st 0, []⟩
/-- rfc3164/machine.go:5458 -/
def r301 : Row Act := ⟨[], [], st 0, []⟩
/-- rfc3164/machine.go:5474 -/
def r302 : Row Act := ⟨[], [], st 0, []⟩
/-- rfc3164/machine.go:5490 -/
def r303 : Row Act := ⟨[], [], st 0, []⟩
/-- rfc3164/machine.go:5506 -/
def r304 : Row Act := ⟨[], [], st 0, []⟩
/-- rfc3164/machine.go:5533 -/
def r305 : Row Act := ⟨[], [], st 0, []⟩
/-- rfc3164/machine.go:5549 -/
def r306 : Row Act := ⟨[], [], st 0, []⟩
/-- rfc3164/machine.go:5565 -/
def r307 : Row Act := ⟨[], [], st 0, []⟩
/-- rfc3164/machine.go:5602 -/
def r308 : Row Act := ⟨[], [], st 0, []⟩
/-- rfc3164/machine.go:5618 -/
def r309 : Row Act := ⟨[], [], st 0, []⟩
/-- rfc3164/machine.go:5634 -/
def r310 : Row Act := ⟨[], [], st 0, []⟩
/-- rfc3164/machine.go:5661 -/
def r311 : Row Act := ⟨[], [], st 0, []⟩
/-- rfc3164/machine.go:5677 -/
def r312 : Row Act := ⟨[], [], st 0, []⟩
/-- rfc3164/machine.go:5693 -/
def r313 : Row Act := ⟨[], [], st 0, []⟩
/-- rfc3164/machine.go:5709 -/
def r314 : Row Act := ⟨[], [], st 0, []⟩
/-- rfc3164/machine.go:5725 -/
def r315 : Row Act := ⟨[], [], st 0, []⟩
/-- rfc3164/machine.go:5741 -/
def r316 : Row Act := ⟨[], [], st 0, []⟩
/-- rfc3164/machine.go:5757 -/
def r317 : Row Act := ⟨[], [], st 0, []⟩
/-- rfc3164/machine.go:5773, end of input: line 7203 -/
def r318 : Row Act := ⟨[], [], tr333, [.errRfc3339]⟩
/-- rfc3164/machine.go:5809, end of input: line 7203 -/
def r319 : Row Act := ⟨[], [], tr333, [.errRfc3339]⟩
/-- rfc3164/machine.go:5836, end of input: line 7203 -/
def r320 : Row Act := ⟨[], [], tr333, [.errRfc3339]⟩
/-- rfc3164/machine.go:5852, end of input: line 7203 -/
def r321 : Row Act := ⟨[], [], tr333, [.errRfc3339]⟩
/-- rfc3164/machine.go:5868, end of input: line 7203 -/
def r322 : Row Act := ⟨[], [], tr333, [.errRfc3339]⟩
/-- rfc3164/machine.go:5884, end of input: line 7203 -/
def r323 : Row Act := ⟨[], [], tr333, [.errRfc3339]⟩
/-- rfc3164/machine.go:5900 -/
def r324 : Row Act := ⟨[], [(32, 32, tr341)], st 0, []⟩
/-- rfc3164/machine.go:5909, end of input: line 7203 -/
def r325 : Row Act := ⟨[], [], tr333, [.errRfc3339]⟩
/-- rfc3164/machine.go:5925 -/
def r326 : Row Act := ⟨[], [], st 0, []⟩
/-- rfc3164/machine.go:5941 -/
def r327 : Row Act := ⟨[], [], st 0, []⟩
/-- rfc3164/machine.go:5957 -/
def r328 : Row Act := ⟨[], [], st 0, []⟩
/-- rfc3164/machine.go:5973 -/
def r329 : Row Act := ⟨[], [], st 0, []⟩
/-- rfc3164/machine.go:5994, end of input: line 7230 -/
def r330 : Row Act := ⟨[.setPrival], [(48, 56, st 331), (57, 57, st 332), (62, 62, st 4)], tr2, [.errPrival, .errPri]⟩
/-- rfc3164/machine.go:6018, end of input: line 7230 -/
def r331 : Row Act := ⟨[.setPrival], [(48, 57, st 3), (62, 62, st 4)], tr2, [.errPrival, .errPri]⟩
/-- rfc3164/machine.go:6034, end of input: line 7230 -/
def r332 : Row Act := ⟨[.setPrival], [(48, 49, st 3), (62, 62, st 4)], tr2, [.errPrival, .errPri]⟩
/-- rfc3164/machine.go:1263, end of input: line 7181 -/
def r333 : Row Act := ⟨[], [(0, 31, st 0), (127, 127, st 0)], st 333, [.setMessage]⟩
/-- rfc3164/machine.go:1280, end of input: line 7181 -/
def r334 : Row Act := ⟨[], [(0, 31, st 0), (33, 57, st 335), (58, 58, tr347), (59, 90, st 335), (91, 91, tr348), (92, 126, st 335), (127, 127, st 0)], st 333, [.setMessage]⟩
/-- rfc3164/machine.go:1302, end of input: line 7181 -/
def r335 : Row Act := ⟨[], [(0, 31, st 0), (33, 57, st 336), (58, 58, tr347), (59, 90, st 336), (91, 91, tr348), (92, 126, st 336), (127, 127, st 0)], st 333, [.setMessage]⟩
/-- rfc3164/machine.go:1324, end of input: line 7181 -/
def r336 : Row Act := ⟨[], [(0, 31, st 0), (33, 57, st 337), (58, 58, tr347), (59, 90, st 337), (91, 91, tr348), (92, 126, st 337), (127, 127, st 0)], st 333, [.setMessage]⟩
/-- rfc3164/machine.go:1346, end of input: line 7181 -/
def r337 : Row Act := ⟨[], [(0, 31, st 0), (33, 57, st 338), (58, 58, tr347), (59, 90, st 338), (91, 91, tr348), (92, 126, st 338), (127, 127, st 0)], st 333, [.setMessage]⟩
/-- rfc3164/machine.go:1368, end of input: line 7181 -/
def r338 : Row Act := ⟨[], [(0, 31, st 0), (33, 57, st 339), (58, 58, tr347), (59, 90, st 339), (91, 91, tr348), (92, 126, st 339), (127, 127, st 0)], st 333, [.setMessage]⟩
/-- rfc3164/machine.go:1390, end of input: line 7181 -/
def r339 : Row Act := ⟨[], [(0, 31, st 0), (33, 57, st 340), (58, 58, tr347), (59, 90, st 340), (91, 91, tr348), (92, 126, st 340), (127, 127, st 0)], st 333, [.setMessage]⟩
/-- rfc3164/machine.go:1412, end of input: line 7181 -/
def r340 : Row Act := ⟨[], [(0, 31, st 0), (33, 57, st 341), (58, 58, tr347), (59, 90, st 341), (91, 91, tr348), (92, 126, st 341), (127, 127, st 0)], st 333, [.setMessage]⟩
/-- rfc3164/machine.go:1434, end of input: line 7181 -/
def r341 : Row Act := ⟨[], [(0, 31, st 0), (33, 57, st 342), (58, 58, tr347), (59, 90, st 342), (91, 91, tr348), (92, 126, st 342), (127, 127, st 0)], st 333, [.setMessage]⟩
/-- rfc3164/machine.go:1456, end of input: line 7181 -/
def r342 : Row Act := ⟨[], [(0, 31, st 0), (33, 57, st 343), (58, 58, tr347), (59, 90, st 343), (91, 91, tr348), (92, 126, st 343), (127, 127, st 0)], st 333, [.setMessage]⟩
/-- rfc3164/machine.go:1478, end of input: line 7181 -/
def r343 : Row Act := ⟨[], [(0, 31, st 0), (33, 57, st 344), (58, 58, tr347), (59, 90, st 344), (91, 91, tr348), (92, 126, st 344), (127, 127, st 0)], st 333, [.setMessage]⟩
/-- rfc3164/machine.go:1500, end of input: line 7181 -/
def r344 : Row Act := ⟨[], [(0, 31, st 0), (33, 57, st 345), (58, 58, tr347), (59, 90, st 345), (91, 91, tr348), (92, 126, st 345), (127, 127, st 0)], st 333, [.setMessage]⟩
/-- rfc3164/machine.go:1522, end of input: line 7181 -/
def r345 : Row Act := ⟨[], [(0, 31, st 0), (33, 57, st 346), (58, 58, tr347), (59, 90, st 346), (91, 91, tr348), (92, 126, st 346), (127, 127, st 0)], st 333, [.setMessage]⟩
/-- rfc3164/machine.go:1544, end of input: line 7181 -/
def r346 : Row Act := ⟨[], [(0, 31, st 0), (33, 57, st 347), (58, 58, tr347), (59, 90, st 347), (91, 91, tr348), (92, 126, st 347), (127, 127, st 0)], st 333, [.setMessage]⟩
/-- rfc3164/machine.go:1566, end of input: line 7181 -/
def r347 : Row Act := ⟨[], [(0, 31, st 0), (33, 57, st 348), (58, 58, tr347), (59, 90, st 348), (91, 91, tr348), (92, 126, st 348), (127, 127, st 0)], st 333, [.setMessage]⟩
/-- rfc3164/machine.go:1588, end of input: line 7181 -/
def r348 : Row Act := ⟨[], [(0, 31, st 0), (33, 57, st 349), (58, 58, tr347), (59, 90, st 349), (91, 91, tr348), (92, 126, st 349), (127, 127, st 0)], st 333, [.setMessage]⟩
/-- rfc3164/machine.go:1610, end of input: line 7181 -/
def r349 : Row Act := ⟨[], [(0, 31, st 0), (33, 57, st 350), (58, 58, tr347), (59, 90, st 350), (91, 91, tr348), (92, 126, st 350), (127, 127, st 0)], st 333, [.setMessage]⟩
/-- rfc3164/machine.go:1632, end of input: line 7181 -/
def r350 : Row Act := ⟨[], [(0, 31, st 0), (33, 57, st 351), (58, 58, tr347), (59, 90, st 351), (91, 91, tr348), (92, 126, st 351), (127, 127, st 0)], st 333, [.setMessage]⟩
/-- rfc3164/machine.go:1654, end of input: line 7181 -/
def r351 : Row Act := ⟨[], [(0, 31, st 0), (33, 57, st 352), (58, 58, tr347), (59, 90, st 352), (91, 91, tr348), (92, 126, st 352), (127, 127, st 0)], st 333, [.setMessage]⟩
/-- rfc3164/machine.go:1676, end of input: line 7181 -/
def r352 : Row Act := ⟨[], [(0, 31, st 0), (33, 57, st 353), (58, 58, tr347), (59, 90, st 353), (91, 91, tr348), (92, 126, st 353), (127, 127, st 0)], st 333, [.setMessage]⟩
/-- rfc3164/machine.go:1698, end of input: line 7181 -/
def r353 : Row Act := ⟨[], [(0, 31, st 0), (33, 57, st 354), (58, 58, tr347), (59, 90, st 354), (91, 91, tr348), (92, 126, st 354), (127, 127, st 0)], st 333, [.setMessage]⟩
/-- rfc3164/machine.go:1720, end of input: line 7181 -/
def r354 : Row Act := ⟨[], [(0, 31, st 0), (33, 57, st 355), (58, 58, tr347), (59, 90, st 355), (91, 91, tr348), (92, 126, st 355), (127, 127, st 0)], st 333, [.setMessage]⟩
/-- rfc3164/machine.go:1742, end of input: line 7181 -/
def r355 : Row Act := ⟨[], [(0, 31, st 0), (33, 57, st 356), (58, 58, tr347), (59, 90, st 356), (91, 91, tr348), (92, 126, st 356), (127, 127, st 0)], st 333, [.setMessage]⟩
/-- rfc3164/machine.go:1764, end of input: line 7181 -/
def r356 : Row Act := ⟨[], [(0, 31, st 0), (33, 57, st 357), (58, 58, tr347), (59, 90, st 357), (91, 91, tr348), (92, 126, st 357), (127, 127, st 0)], st 333, [.setMessage]⟩
/-- rfc3164/machine.go:1786, end of input: line 7181 -/
def r357 : Row Act := ⟨[], [(0, 31, st 0), (33, 57, st 358), (58, 58, tr347), (59, 90, st 358), (91, 91, tr348), (92, 126, st 358), (127, 127, st 0)], st 333, [.setMessage]⟩
/-- rfc3164/machine.go:1808, end of input: line 7181 -/
def r358 : Row Act := ⟨[], [(0, 31, st 0), (33, 57, st 359), (58, 58, tr347), (59, 90, st 359), (91, 91, tr348), (92, 126, st 359), (127, 127, st 0)], st 333, [.setMessage]⟩
/-- rfc3164/machine.go:1830, end of input: line 7181 -/
def r359 : Row Act := ⟨[], [(0, 31, st 0), (33, 57, st 360), (58, 58, tr347), (59, 90, st 360), (91, 91, tr348), (92, 126, st 360), (127, 127, st 0)], st 333, [.setMessage]⟩
/-- rfc3164/machine.go:1852, end of input: line 7181 -/
def r360 : Row Act := ⟨[], [(0, 31, st 0), (33, 57, st 361), (58, 58, tr347), (59, 90, st 361), (91, 91, tr348), (92, 126, st 361), (127, 127, st 0)], st 333, [.setMessage]⟩
/-- rfc3164/machine.go:1874, end of input: line 7181 -/
def r361 : Row Act := ⟨[], [(0, 31, st 0), (33, 57, st 362), (58, 58, tr347), (59, 90, st 362), (91, 91, tr348), (92, 126, st 362), (127, 127, st 0)], st 333, [.setMessage]⟩
/-- rfc3164/machine.go:1896, end of input: line 7181 -/
def r362 : Row Act := ⟨[], [(0, 31, st 0), (33, 57, st 363), (58, 58, tr347), (59, 90, st 363), (91, 91, tr348), (92, 126, st 363), (127, 127, st 0)], st 333, [.setMessage]⟩
/-- rfc3164/machine.go:1918, end of input: line 7181 -/
def r363 : Row Act := ⟨[], [(0, 31, st 0), (33, 57, st 364), (58, 58, tr347), (59, 90, st 364), (91, 91, tr348), (92, 126, st 364), (127, 127, st 0)], st 333, [.setMessage]⟩
/-- rfc3164/machine.go:1940, end of input: line 7181 -/
def r364 : Row Act := ⟨[], [(0, 31, st 0), (33, 57, st 365), (58, 58, tr347), (59, 90, st 365), (91, 91, tr348), (92, 126, st 365), (127, 127, st 0)], st 333, [.setMessage]⟩
/-- rfc3164/machine.go:1962, end of input: line 7181 -/
def r365 : Row Act := ⟨[], [(0, 31, st 0), (58, 58, tr347), (91, 91, tr348), (127, 127, st 0)], st 333, [.setMessage]⟩
/-- rfc3164/machine.go:1984, end of input: line 7181 -/
def r366 : Row Act := ⟨[], [(0, 31, st 0), (32, 32, st 367), (127, 127, st 0)], st 333, [.setMessage]⟩
/-- rfc3164/machine.go:1999, end of input: line 7181 -/
def r367 : Row Act := ⟨[], [(0, 31, st 0), (127, 127, st 0)], tr42, [.setMessage]⟩
/-- rfc3164/machine.go:2016, end of input: line 7181 -/
def r368 : Row Act := ⟨[], [(0, 31, tr380), (93, 93, tr381), (127, 127, tr380)], tr48, [.setMessage]⟩
/-- rfc3164/machine.go:2094, end of input: line 7181 -/
def r369 : Row Act := ⟨[], [(0, 31, st 23), (93, 93, tr383), (127, 127, st 23)], st 369, [.setMessage]⟩
/-- rfc3164/machine.go:2128, end of input: line 7181 -/
def r370 : Row Act := ⟨[], [(0, 31, st 23), (58, 58, st 371), (93, 93, tr383), (127, 127, st 23)], st 369, [.setMessage]⟩
/-- rfc3164/machine.go:2145, end of input: line 7181 -/
def r371 : Row Act := ⟨[], [(0, 31, st 23), (32, 32, st 372), (93, 93, tr383), (127, 127, st 23)], st 369, [.setMessage]⟩
/-- rfc3164/machine.go:2162, end of input: line 7181 -/
def r372 : Row Act := ⟨[], [(0, 31, st 23), (93, 93, tr49), (127, 127, st 23)], tr48, [.setMessage]⟩
/-- rfc3164/machine.go:6050 -/
def r373 : Row Act := ⟨[], [(10, 10, st 0), (13, 13, st 0)], st 373, []⟩

/-! Rows of the states guarded by `when { m.rfc3339 }`, for `m.rfc3339 = true`. -/
/-- rfc3164/machine.go:979, end of input: line 7194 -/
def rr4 : Row Act := ⟨[], [(48, 57, tr16), (65, 65, tr8), (68, 68, tr9), (70, 70, tr10), (74, 74, tr11), (77, 77, tr12), (78, 78, tr13), (79, 79, tr14), (83, 83, tr15)], tr7, [.errTimestamp]⟩
/-- rfc3164/machine.go:5442 -/
def rr300 : Row Act := ⟨[], [(48, 57, st 301)], st 0, []⟩
/-- rfc3164/machine.go:5458 -/
def rr301 : Row Act := ⟨[], [(48, 57, st 302)], st 0, []⟩
/-- rfc3164/machine.go:5474 -/
def rr302 : Row Act := ⟨[], [(48, 57, st 303)], st 0, []⟩
/-- rfc3164/machine.go:5490 -/
def rr303 : Row Act := ⟨[], [(45, 45, st 304)], st 0, []⟩
/-- rfc3164/machine.go:5506 -/
def rr304 : Row Act := ⟨[], [(48, 48, st 305), (49, 49, st 329)], st 0, []⟩
/-- rfc3164/machine.go:5533 -/
def rr305 : Row Act := ⟨[], [(49, 57, st 306)], st 0, []⟩
/-- rfc3164/machine.go:5549 -/
def rr306 : Row Act := ⟨[], [(45, 45, st 307)], st 0, []⟩
/-- rfc3164/machine.go:5565 -/
def rr307 : Row Act := ⟨[], [(48, 48, st 308), (49, 50, st 327), (51, 51, st 328)], st 0, []⟩
/-- rfc3164/machine.go:5602 -/
def rr308 : Row Act := ⟨[], [(49, 57, st 309)], st 0, []⟩
/-- rfc3164/machine.go:5618 -/
def rr309 : Row Act := ⟨[], [(84, 84, st 310)], st 0, []⟩
/-- rfc3164/machine.go:5634 -/
def rr310 : Row Act := ⟨[], [(48, 49, st 311), (50, 50, st 326)], st 0, []⟩
/-- rfc3164/machine.go:5661 -/
def rr311 : Row Act := ⟨[], [(48, 57, st 312)], st 0, []⟩
/-- rfc3164/machine.go:5677 -/
def rr312 : Row Act := ⟨[], [(58, 58, st 313)], st 0, []⟩
/-- rfc3164/machine.go:5693 -/
def rr313 : Row Act := ⟨[], [(48, 53, st 314)], st 0, []⟩
/-- rfc3164/machine.go:5709 -/
def rr314 : Row Act := ⟨[], [(48, 57, st 315)], st 0, []⟩
/-- rfc3164/machine.go:5725 -/
def rr315 : Row Act := ⟨[], [(58, 58, st 316)], st 0, []⟩
/-- rfc3164/machine.go:5741 -/
def rr316 : Row Act := ⟨[], [(48, 53, st 317)], st 0, []⟩
/-- rfc3164/machine.go:5757 -/
def rr317 : Row Act := ⟨[], [(48, 57, st 318)], st 0, []⟩
/-- rfc3164/machine.go:5773, end of input: line 7203 -/
def rr318 : Row Act := ⟨[], [(43, 43, st 319), (45, 45, st 319), (90, 90, st 324)], tr333, [.errRfc3339]⟩
/-- rfc3164/machine.go:5809, end of input: line 7203 -/
def rr319 : Row Act := ⟨[], [(48, 49, st 320), (50, 50, st 325)], tr333, [.errRfc3339]⟩
/-- rfc3164/machine.go:5836, end of input: line 7203 -/
def rr320 : Row Act := ⟨[], [(48, 57, st 321)], tr333, [.errRfc3339]⟩
/-- rfc3164/machine.go:5852, end of input: line 7203 -/
def rr321 : Row Act := ⟨[], [(58, 58, st 322)], tr333, [.errRfc3339]⟩
/-- rfc3164/machine.go:5868, end of input: line 7203 -/
def rr322 : Row Act := ⟨[], [(48, 53, st 323)], tr333, [.errRfc3339]⟩
/-- rfc3164/machine.go:5884, end of input: line 7203 -/
def rr323 : Row Act := ⟨[], [(48, 57, st 324)], tr333, [.errRfc3339]⟩
/-- rfc3164/machine.go:5909, end of input: line 7203 -/
def rr325 : Row Act := ⟨[], [(48, 51, st 321)], tr333, [.errRfc3339]⟩
/-- rfc3164/machine.go:5925 -/
def rr326 : Row Act := ⟨[], [(48, 51, st 312)], st 0, []⟩
/-- rfc3164/machine.go:5941 -/
def rr327 : Row Act := ⟨[], [(48, 57, st 309)], st 0, []⟩
/-- rfc3164/machine.go:5957 -/
def rr328 : Row Act := ⟨[], [(48, 49, st 309)], st 0, []⟩
/-- rfc3164/machine.go:5973 -/
def rr329 : Row Act := ⟨[], [(48, 50, st 306)], st 0, []⟩

/-- The FSM, row `N` = `stCaseN`. -/
def table : List (Row Act) := [
  r0, r1, r2, r3, r4, r5, r6, r7, r8, r9, r10, r11,
  r12, r13, r14, r15, r16, r17, r18, r19, r20, r21, r22, r23,
  r24, r25, r26, r27, r28, r29, r30, r31, r32, r33, r34, r35,
  r36, r37, r38, r39, r40, r41, r42, r43, r44, r45, r46, r47,
  r48, r49, r50, r51, r52, r53, r54, r55, r56, r57, r58, r59,
  r60, r61, r62, r63, r64, r65, r66, r67, r68, r69, r70, r71,
  r72, r73, r74, r75, r76, r77, r78, r79, r80, r81, r82, r83,
  r84, r85, r86, r87, r88, r89, r90, r91, r92, r93, r94, r95,
  r96, r97, r98, r99, r100, r101, r102, r103, r104, r105, r106, r107,
  r108, r109, r110, r111, r112, r113, r114, r115, r116, r117, r118, r119,
  r120, r121, r122, r123, r124, r125, r126, r127, r128, r129, r130, r131,
  r132, r133, r134, r135, r136, r137, r138, r139, r140, r141, r142, r143,
  r144, r145, r146, r147, r148, r149, r150, r151, r152, r153, r154, r155,
  r156, r157, r158, r159, r160, r161, r162, r163, r164, r165, r166, r167,
  r168, r169, r170, r171, r172, r173, r174, r175, r176, r177, r178, r179,
  r180, r181, r182, r183, r184, r185, r186, r187, r188, r189, r190, r191,
  r192, r193, r194, r195, r196, r197, r198, r199, r200, r201, r202, r203,
  r204, r205, r206, r207, r208, r209, r210, r211, r212, r213, r214, r215,
  r216, r217, r218, r219, r220, r221, r222, r223, r224, r225, r226, r227,
  r228, r229, r230, r231, r232, r233, r234, r235, r236, r237, r238, r239,
  r240, r241, r242, r243, r244, r245, r246, r247, r248, r249, r250, r251,
  r252, r253, r254, r255, r256, r257, r258, r259, r260, r261, r262, r263,
  r264, r265, r266, r267, r268, r269, r270, r271, r272, r273, r274, r275,
  r276, r277, r278, r279, r280, r281, r282, r283, r284, r285, r286, r287,
  r288, r289, r290, r291, r292, r293, r294, r295, r296, r297, r298, r299,
  r300, r301, r302, r303, r304, r305, r306, r307, r308, r309, r310, r311,
  r312, r313, r314, r315, r316, r317, r318, r319, r320, r321, r322, r323,
  r324, r325, r326, r327, r328, r329, r330, r331, r332, r333, r334, r335,
  r336, r337, r338, r339, r340, r341, r342, r343, r344, r345, r346, r347,
  r348, r349, r350, r351, r352, r353, r354, r355, r356, r357, r358, r359,
  r360, r361, r362, r363, r364, r365, r366, r367, r368, r369, r370, r371,
  r372, r373]

/-- The FSM, row `N` = `stCaseN`. -/
def tableR : List (Row Act) := [
  r0, r1, r2, r3, rr4, r5, r6, r7, r8, r9, r10, r11,
  r12, r13, r14, r15, r16, r17, r18, r19, r20, r21, r22, r23,
  r24, r25, r26, r27, r28, r29, r30, r31, r32, r33, r34, r35,
  r36, r37, r38, r39, r40, r41, r42, r43, r44, r45, r46, r47,
  r48, r49, r50, r51, r52, r53, r54, r55, r56, r57, r58, r59,
  r60, r61, r62, r63, r64, r65, r66, r67, r68, r69, r70, r71,
  r72, r73, r74, r75, r76, r77, r78, r79, r80, r81, r82, r83,
  r84, r85, r86, r87, r88, r89, r90, r91, r92, r93, r94, r95,
  r96, r97, r98, r99, r100, r101, r102, r103, r104, r105, r106, r107,
  r108, r109, r110, r111, r112, r113, r114, r115, r116, r117, r118, r119,
  r120, r121, r122, r123, r124, r125, r126, r127, r128, r129, r130, r131,
  r132, r133, r134, r135, r136, r137, r138, r139, r140, r141, r142, r143,
  r144, r145, r146, r147, r148, r149, r150, r151, r152, r153, r154, r155,
  r156, r157, r158, r159, r160, r161, r162, r163, r164, r165, r166, r167,
  r168, r169, r170, r171, r172, r173, r174, r175, r176, r177, r178, r179,
  r180, r181, r182, r183, r184, r185, r186, r187, r188, r189, r190, r191,
  r192, r193, r194, r195, r196, r197, r198, r199, r200, r201, r202, r203,
  r204, r205, r206, r207, r208, r209, r210, r211, r212, r213, r214, r215,
  r216, r217, r218, r219, r220, r221, r222, r223, r224, r225, r226, r227,
  r228, r229, r230, r231, r232, r233, r234, r235, r236, r237, r238, r239,
  r240, r241, r242, r243, r244, r245, r246, r247, r248, r249, r250, r251,
  r252, r253, r254, r255, r256, r257, r258, r259, r260, r261, r262, r263,
  r264, r265, r266, r267, r268, r269, r270, r271, r272, r273, r274, r275,
  r276, r277, r278, r279, r280, r281, r282, r283, r284, r285, r286, r287,
  r288, r289, r290, r291, r292, r293, r294, r295, r296, r297, r298, r299,
  rr300, rr301, rr302, rr303, rr304, rr305, rr306, rr307, rr308, rr309, rr310, rr311,
  rr312, rr313, rr314, rr315, rr316, rr317, rr318, rr319, rr320, rr321, rr322, rr323,
  r324, rr325, rr326, rr327, rr328, rr329, r330, r331, r332, r333, r334, r335,
  r336, r337, r338, r339, r340, r341, r342, r343, r344, r345, r346, r347,
  r348, r349, r350, r351, r352, r353, r354, r355, r356, r357, r358, r359,
  r360, r361, r362, r363, r364, r365, r366, r367, r368, r369, r370, r371,
  r372, r373]

end Verif.Gen.Rfc3164
