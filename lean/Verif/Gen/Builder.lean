import Verif.Fsm

/-!
# Builder: transition table of the Ragel-generated FSM in `rfc5424/builder.go`

GENERATED by `tools/gen.py` from the Go source; do not edit by hand.
Entry states: see `entrypoint.translate` (builder.go).
* `Act`: one constructor per distinct action snippet of the Go code (the snippet is quoted).
* `trN`: the Go label `trN:` (its actions in order, and the state it goes to).
* `rN`: the Go label `stCaseN:` (from-state actions, byte ranges, the `goto` taken by all
  remaining bytes, and the actions of `case N:` in the end-of-input switch).
-/

namespace Verif.Gen.Builder
open Verif.Fsm

/-- Actions embedded in `rfc5424/builder.go`. -/
inductive Act where
  /-- `pb = p` -/
  | mark
  /-- `if t, e := time.Parse(RFC3339MICRO, string(data[pb:p])); e == nil { sm.Timestamp = &t }` -/
  | setTimestamp
  /-- `if s := string(data[pb:p]); s != "-" { sm.Hostname = &s }` -/
  | setHostname
  /-- `if s := string(data[pb:p]); s != "-" { sm.Appname = &s }` -/
  | setAppname
  /-- `if s := string(data[pb:p]); s != "-" { sm.ProcID = &s }` -/
  | setProcid
  /-- `if s := string(data[pb:p]); s != "-" { sm.MsgID = &s }` -/
  | setMsgid
  /-- `if sm.StructuredData == nil { sm.StructuredData = &(map[string]map[string]string{}) } id := string(data[pb:p]) elements := *sm.StructuredData if _, ok := elements[id]; !ok { elements[id] = map[string]string{} }` -/
  | setSdid
  /-- `// Assuming SD map already exists, contains currentid key (set from outside) elements := *sm.StructuredData elements[currentid][string(data[pb:p])] = ""` -/
  | setSdpn
  /-- `backslashes = append(backslashes, p)` -/
  | markslash
  /-- `// Store text text := data[pb:p] // Strip backslashes only when there are ... if len(backslashes) > 0 { text = common.RemoveBytes(text, backslashes, pb) } // Assuming SD map already exists, contains currentid key and currentparamname key (set from outside) elements := *sm.StructuredData elements[currentid][currentparamname] = string(text)` -/
  | setSdpv
  /-- `if s := string(data[pb:p]); s != "" { sm.Message = &s }` -/
  | setMsg
  deriving DecidableEq, Repr

/-- label `stN:` — `if p++; p == pe { goto _testEofN }` then `stCaseN`: no action, go to N. -/
@[reducible] def st (n : Nat) : Label Act := ⟨[], n⟩

/-- rfc5424/builder.go:1273 -/
def tr0 : Label Act := ⟨[.mark], 2⟩
/-- rfc5424/builder.go:1680 -/
def tr38 : Label Act := ⟨[.mark], 55⟩
/-- rfc5424/builder.go:3982 -/
def tr39 : Label Act := ⟨[.mark], 310⟩
/-- rfc5424/builder.go:4421 -/
def tr40 : Label Act := ⟨[.mark], 358⟩
/-- rfc5424/builder.go:5580 -/
def tr41 : Label Act := ⟨[.mark], 486⟩
/-- rfc5424/builder.go:5887 -/
def tr42 : Label Act := ⟨[.mark], 518⟩
/-- rfc5424/builder.go:6566 -/
def tr43 : Label Act := ⟨[.mark], 550⟩
/-- rfc5424/builder.go:1253 -/
def tr47 : Label Act := ⟨[.mark], 53⟩
/-- rfc5424/builder.go:7268 -/
def tr570 : Label Act := ⟨[.mark], 583⟩
/-- rfc5424/builder.go:7317 -/
def tr571 : Label Act := ⟨[.mark, .markslash], 44⟩
/-- rfc5424/builder.go:7341 -/
def tr572 : Label Act := ⟨[.mark], 45⟩
/-- rfc5424/builder.go:7355 -/
def tr573 : Label Act := ⟨[.mark], 46⟩
/-- rfc5424/builder.go:7369 -/
def tr574 : Label Act := ⟨[.mark], 47⟩
/-- rfc5424/builder.go:7383 -/
def tr575 : Label Act := ⟨[.mark], 48⟩
/-- rfc5424/builder.go:7397 -/
def tr576 : Label Act := ⟨[.mark], 49⟩
/-- rfc5424/builder.go:7411 -/
def tr577 : Label Act := ⟨[.mark], 50⟩
/-- rfc5424/builder.go:7425 -/
def tr578 : Label Act := ⟨[.mark], 51⟩
/-- rfc5424/builder.go:7324 -/
def tr579 : Label Act := ⟨[.markslash], 44⟩

/-- `st0:` — `cs = 0; goto _out` (never dispatched: the interpreter stops in state 0). -/
def r0 : Row Act := ⟨[], [], st 0, []⟩
/-- rfc5424/builder.go:1264 -/
def r1 : Row Act := ⟨[], [(48, 57, tr0)], st 0, []⟩
/-- rfc5424/builder.go:1282 -/
def r2 : Row Act := ⟨[], [(48, 57, st 3)], st 0, []⟩
/-- rfc5424/builder.go:1291 -/
def r3 : Row Act := ⟨[], [(48, 57, st 4)], st 0, []⟩
/-- rfc5424/builder.go:1300 -/
def r4 : Row Act := ⟨[], [(48, 57, st 5)], st 0, []⟩
/-- rfc5424/builder.go:1309 -/
def r5 : Row Act := ⟨[], [(45, 45, st 6)], st 0, []⟩
/-- rfc5424/builder.go:1318 -/
def r6 : Row Act := ⟨[], [(48, 48, st 7), (49, 49, st 37)], st 0, []⟩
/-- rfc5424/builder.go:1330 -/
def r7 : Row Act := ⟨[], [(49, 57, st 8)], st 0, []⟩
/-- rfc5424/builder.go:1339 -/
def r8 : Row Act := ⟨[], [(45, 45, st 9)], st 0, []⟩
/-- rfc5424/builder.go:1348 -/
def r9 : Row Act := ⟨[], [(48, 48, st 10), (49, 50, st 35), (51, 51, st 36)], st 0, []⟩
/-- rfc5424/builder.go:1363 -/
def r10 : Row Act := ⟨[], [(49, 57, st 11)], st 0, []⟩
/-- rfc5424/builder.go:1372 -/
def r11 : Row Act := ⟨[], [(84, 84, st 12)], st 0, []⟩
/-- rfc5424/builder.go:1381 -/
def r12 : Row Act := ⟨[], [(48, 49, st 13), (50, 50, st 34)], st 0, []⟩
/-- rfc5424/builder.go:1393 -/
def r13 : Row Act := ⟨[], [(48, 57, st 14)], st 0, []⟩
/-- rfc5424/builder.go:1402 -/
def r14 : Row Act := ⟨[], [(58, 58, st 15)], st 0, []⟩
/-- rfc5424/builder.go:1411 -/
def r15 : Row Act := ⟨[], [(48, 53, st 16)], st 0, []⟩
/-- rfc5424/builder.go:1420 -/
def r16 : Row Act := ⟨[], [(48, 57, st 17)], st 0, []⟩
/-- rfc5424/builder.go:1429 -/
def r17 : Row Act := ⟨[], [(58, 58, st 18)], st 0, []⟩
/-- rfc5424/builder.go:1438 -/
def r18 : Row Act := ⟨[], [(48, 53, st 19)], st 0, []⟩
/-- rfc5424/builder.go:1447 -/
def r19 : Row Act := ⟨[], [(48, 57, st 20)], st 0, []⟩
/-- rfc5424/builder.go:1456 -/
def r20 : Row Act := ⟨[], [(43, 43, st 21), (45, 45, st 21), (46, 46, st 27), (90, 90, st 54)], st 0, []⟩
/-- rfc5424/builder.go:1472 -/
def r21 : Row Act := ⟨[], [(48, 49, st 22), (50, 50, st 26)], st 0, []⟩
/-- rfc5424/builder.go:1484 -/
def r22 : Row Act := ⟨[], [(48, 57, st 23)], st 0, []⟩
/-- rfc5424/builder.go:1493 -/
def r23 : Row Act := ⟨[], [(58, 58, st 24)], st 0, []⟩
/-- rfc5424/builder.go:1502 -/
def r24 : Row Act := ⟨[], [(48, 53, st 25)], st 0, []⟩
/-- rfc5424/builder.go:1511 -/
def r25 : Row Act := ⟨[], [(48, 57, st 54)], st 0, []⟩
/-- rfc5424/builder.go:1526 -/
def r26 : Row Act := ⟨[], [(48, 51, st 23)], st 0, []⟩
/-- rfc5424/builder.go:1535 -/
def r27 : Row Act := ⟨[], [(48, 57, st 28)], st 0, []⟩
/-- rfc5424/builder.go:1544 -/
def r28 : Row Act := ⟨[], [(43, 43, st 21), (45, 45, st 21), (48, 57, st 29), (90, 90, st 54)], st 0, []⟩
/-- rfc5424/builder.go:1561 -/
def r29 : Row Act := ⟨[], [(43, 43, st 21), (45, 45, st 21), (48, 57, st 30), (90, 90, st 54)], st 0, []⟩
/-- rfc5424/builder.go:1578 -/
def r30 : Row Act := ⟨[], [(43, 43, st 21), (45, 45, st 21), (48, 57, st 31), (90, 90, st 54)], st 0, []⟩
/-- rfc5424/builder.go:1595 -/
def r31 : Row Act := ⟨[], [(43, 43, st 21), (45, 45, st 21), (48, 57, st 32), (90, 90, st 54)], st 0, []⟩
/-- rfc5424/builder.go:1612 -/
def r32 : Row Act := ⟨[], [(43, 43, st 21), (45, 45, st 21), (48, 57, st 33), (90, 90, st 54)], st 0, []⟩
/-- rfc5424/builder.go:1629 -/
def r33 : Row Act := ⟨[], [(43, 43, st 21), (45, 45, st 21), (90, 90, st 54)], st 0, []⟩
/-- rfc5424/builder.go:1643 -/
def r34 : Row Act := ⟨[], [(48, 51, st 14)], st 0, []⟩
/-- rfc5424/builder.go:1652 -/
def r35 : Row Act := ⟨[], [(48, 57, st 11)], st 0, []⟩
/-- rfc5424/builder.go:1661 -/
def r36 : Row Act := ⟨[], [(48, 49, st 11)], st 0, []⟩
/-- rfc5424/builder.go:1670 -/
def r37 : Row Act := ⟨[], [(48, 50, st 8)], st 0, []⟩
/-- rfc5424/builder.go:1675 -/
def r38 : Row Act := ⟨[], [(33, 126, tr38)], st 0, []⟩
/-- rfc5424/builder.go:3977 -/
def r39 : Row Act := ⟨[], [(33, 126, tr39)], st 0, []⟩
/-- rfc5424/builder.go:4416 -/
def r40 : Row Act := ⟨[], [(33, 126, tr40)], st 0, []⟩
/-- rfc5424/builder.go:5575 -/
def r41 : Row Act := ⟨[], [(33, 126, tr41)], st 0, []⟩
/-- rfc5424/builder.go:5870 -/
def r42 : Row Act := ⟨[], [(33, 33, tr42), (35, 60, tr42), (62, 92, tr42), (94, 126, tr42)], st 0, []⟩
/-- rfc5424/builder.go:6549 -/
def r43 : Row Act := ⟨[], [(33, 33, tr43), (35, 60, tr43), (62, 92, tr43), (94, 126, tr43)], st 0, []⟩
/-- rfc5424/builder.go:7333 -/
def r44 : Row Act := ⟨[], [(34, 34, st 583), (92, 93, st 583)], st 0, []⟩
/-- rfc5424/builder.go:7350 -/
def r45 : Row Act := ⟨[], [(128, 191, st 583)], st 0, []⟩
/-- rfc5424/builder.go:7364 -/
def r46 : Row Act := ⟨[], [(160, 191, st 45)], st 0, []⟩
/-- rfc5424/builder.go:7378 -/
def r47 : Row Act := ⟨[], [(128, 191, st 45)], st 0, []⟩
/-- rfc5424/builder.go:7392 -/
def r48 : Row Act := ⟨[], [(128, 159, st 45)], st 0, []⟩
/-- rfc5424/builder.go:7406 -/
def r49 : Row Act := ⟨[], [(144, 191, st 47)], st 0, []⟩
/-- rfc5424/builder.go:7420 -/
def r50 : Row Act := ⟨[], [(128, 191, st 47)], st 0, []⟩
/-- rfc5424/builder.go:7434 -/
def r51 : Row Act := ⟨[], [(128, 143, st 47)], st 0, []⟩
/-- rfc5424/builder.go:1251, end of input: line 9248 -/
def r52 : Row Act := ⟨[], [], tr47, [.mark, .setMsg]⟩
/-- rfc5424/builder.go:1262, end of input: line 9228 -/
def r53 : Row Act := ⟨[], [], st 53, [.setMsg]⟩
/-- rfc5424/builder.go:1520, end of input: line 9168 -/
def r54 : Row Act := ⟨[], [], st 0, [.setTimestamp]⟩
/-- rfc5424/builder.go:1689, end of input: line 9174 -/
def r55 : Row Act := ⟨[], [(33, 126, st 56)], st 0, [.setHostname]⟩
/-- rfc5424/builder.go:1698, end of input: line 9174 -/
def r56 : Row Act := ⟨[], [(33, 126, st 57)], st 0, [.setHostname]⟩
/-- rfc5424/builder.go:1707, end of input: line 9174 -/
def r57 : Row Act := ⟨[], [(33, 126, st 58)], st 0, [.setHostname]⟩
/-- rfc5424/builder.go:1716, end of input: line 9174 -/
def r58 : Row Act := ⟨[], [(33, 126, st 59)], st 0, [.setHostname]⟩
/-- rfc5424/builder.go:1725, end of input: line 9174 -/
def r59 : Row Act := ⟨[], [(33, 126, st 60)], st 0, [.setHostname]⟩
/-- rfc5424/builder.go:1734, end of input: line 9174 -/
def r60 : Row Act := ⟨[], [(33, 126, st 61)], st 0, [.setHostname]⟩
/-- rfc5424/builder.go:1743, end of input: line 9174 -/
def r61 : Row Act := ⟨[], [(33, 126, st 62)], st 0, [.setHostname]⟩
/-- rfc5424/builder.go:1752, end of input: line 9174 -/
def r62 : Row Act := ⟨[], [(33, 126, st 63)], st 0, [.setHostname]⟩
/-- rfc5424/builder.go:1761, end of input: line 9174 -/
def r63 : Row Act := ⟨[], [(33, 126, st 64)], st 0, [.setHostname]⟩
/-- rfc5424/builder.go:1770, end of input: line 9174 -/
def r64 : Row Act := ⟨[], [(33, 126, st 65)], st 0, [.setHostname]⟩
/-- rfc5424/builder.go:1779, end of input: line 9174 -/
def r65 : Row Act := ⟨[], [(33, 126, st 66)], st 0, [.setHostname]⟩
/-- rfc5424/builder.go:1788, end of input: line 9174 -/
def r66 : Row Act := ⟨[], [(33, 126, st 67)], st 0, [.setHostname]⟩
/-- rfc5424/builder.go:1797, end of input: line 9174 -/
def r67 : Row Act := ⟨[], [(33, 126, st 68)], st 0, [.setHostname]⟩
/-- rfc5424/builder.go:1806, end of input: line 9174 -/
def r68 : Row Act := ⟨[], [(33, 126, st 69)], st 0, [.setHostname]⟩
/-- rfc5424/builder.go:1815, end of input: line 9174 -/
def r69 : Row Act := ⟨[], [(33, 126, st 70)], st 0, [.setHostname]⟩
/-- rfc5424/builder.go:1824, end of input: line 9174 -/
def r70 : Row Act := ⟨[], [(33, 126, st 71)], st 0, [.setHostname]⟩
/-- rfc5424/builder.go:1833, end of input: line 9174 -/
def r71 : Row Act := ⟨[], [(33, 126, st 72)], st 0, [.setHostname]⟩
/-- rfc5424/builder.go:1842, end of input: line 9174 -/
def r72 : Row Act := ⟨[], [(33, 126, st 73)], st 0, [.setHostname]⟩
/-- rfc5424/builder.go:1851, end of input: line 9174 -/
def r73 : Row Act := ⟨[], [(33, 126, st 74)], st 0, [.setHostname]⟩
/-- rfc5424/builder.go:1860, end of input: line 9174 -/
def r74 : Row Act := ⟨[], [(33, 126, st 75)], st 0, [.setHostname]⟩
/-- rfc5424/builder.go:1869, end of input: line 9174 -/
def r75 : Row Act := ⟨[], [(33, 126, st 76)], st 0, [.setHostname]⟩
/-- rfc5424/builder.go:1878, end of input: line 9174 -/
def r76 : Row Act := ⟨[], [(33, 126, st 77)], st 0, [.setHostname]⟩
/-- rfc5424/builder.go:1887, end of input: line 9174 -/
def r77 : Row Act := ⟨[], [(33, 126, st 78)], st 0, [.setHostname]⟩
/-- rfc5424/builder.go:1896, end of input: line 9174 -/
def r78 : Row Act := ⟨[], [(33, 126, st 79)], st 0, [.setHostname]⟩
/-- rfc5424/builder.go:1905, end of input: line 9174 -/
def r79 : Row Act := ⟨[], [(33, 126, st 80)], st 0, [.setHostname]⟩
/-- rfc5424/builder.go:1914, end of input: line 9174 -/
def r80 : Row Act := ⟨[], [(33, 126, st 81)], st 0, [.setHostname]⟩
/-- rfc5424/builder.go:1923, end of input: line 9174 -/
def r81 : Row Act := ⟨[], [(33, 126, st 82)], st 0, [.setHostname]⟩
/-- rfc5424/builder.go:1932, end of input: line 9174 -/
def r82 : Row Act := ⟨[], [(33, 126, st 83)], st 0, [.setHostname]⟩
/-- rfc5424/builder.go:1941, end of input: line 9174 -/
def r83 : Row Act := ⟨[], [(33, 126, st 84)], st 0, [.setHostname]⟩
/-- rfc5424/builder.go:1950, end of input: line 9174 -/
def r84 : Row Act := ⟨[], [(33, 126, st 85)], st 0, [.setHostname]⟩
/-- rfc5424/builder.go:1959, end of input: line 9174 -/
def r85 : Row Act := ⟨[], [(33, 126, st 86)], st 0, [.setHostname]⟩
/-- rfc5424/builder.go:1968, end of input: line 9174 -/
def r86 : Row Act := ⟨[], [(33, 126, st 87)], st 0, [.setHostname]⟩
/-- rfc5424/builder.go:1977, end of input: line 9174 -/
def r87 : Row Act := ⟨[], [(33, 126, st 88)], st 0, [.setHostname]⟩
/-- rfc5424/builder.go:1986, end of input: line 9174 -/
def r88 : Row Act := ⟨[], [(33, 126, st 89)], st 0, [.setHostname]⟩
/-- rfc5424/builder.go:1995, end of input: line 9174 -/
def r89 : Row Act := ⟨[], [(33, 126, st 90)], st 0, [.setHostname]⟩
/-- rfc5424/builder.go:2004, end of input: line 9174 -/
def r90 : Row Act := ⟨[], [(33, 126, st 91)], st 0, [.setHostname]⟩
/-- rfc5424/builder.go:2013, end of input: line 9174 -/
def r91 : Row Act := ⟨[], [(33, 126, st 92)], st 0, [.setHostname]⟩
/-- rfc5424/builder.go:2022, end of input: line 9174 -/
def r92 : Row Act := ⟨[], [(33, 126, st 93)], st 0, [.setHostname]⟩
/-- rfc5424/builder.go:2031, end of input: line 9174 -/
def r93 : Row Act := ⟨[], [(33, 126, st 94)], st 0, [.setHostname]⟩
/-- rfc5424/builder.go:2040, end of input: line 9174 -/
def r94 : Row Act := ⟨[], [(33, 126, st 95)], st 0, [.setHostname]⟩
/-- rfc5424/builder.go:2049, end of input: line 9174 -/
def r95 : Row Act := ⟨[], [(33, 126, st 96)], st 0, [.setHostname]⟩
/-- rfc5424/builder.go:2058, end of input: line 9174 -/
def r96 : Row Act := ⟨[], [(33, 126, st 97)], st 0, [.setHostname]⟩
/-- rfc5424/builder.go:2067, end of input: line 9174 -/
def r97 : Row Act := ⟨[], [(33, 126, st 98)], st 0, [.setHostname]⟩
/-- rfc5424/builder.go:2076, end of input: line 9174 -/
def r98 : Row Act := ⟨[], [(33, 126, st 99)], st 0, [.setHostname]⟩
/-- rfc5424/builder.go:2085, end of input: line 9174 -/
def r99 : Row Act := ⟨[], [(33, 126, st 100)], st 0, [.setHostname]⟩
/-- rfc5424/builder.go:2094, end of input: line 9174 -/
def r100 : Row Act := ⟨[], [(33, 126, st 101)], st 0, [.setHostname]⟩
/-- rfc5424/builder.go:2103, end of input: line 9174 -/
def r101 : Row Act := ⟨[], [(33, 126, st 102)], st 0, [.setHostname]⟩
/-- rfc5424/builder.go:2112, end of input: line 9174 -/
def r102 : Row Act := ⟨[], [(33, 126, st 103)], st 0, [.setHostname]⟩
/-- rfc5424/builder.go:2121, end of input: line 9174 -/
def r103 : Row Act := ⟨[], [(33, 126, st 104)], st 0, [.setHostname]⟩
/-- rfc5424/builder.go:2130, end of input: line 9174 -/
def r104 : Row Act := ⟨[], [(33, 126, st 105)], st 0, [.setHostname]⟩
/-- rfc5424/builder.go:2139, end of input: line 9174 -/
def r105 : Row Act := ⟨[], [(33, 126, st 106)], st 0, [.setHostname]⟩
/-- rfc5424/builder.go:2148, end of input: line 9174 -/
def r106 : Row Act := ⟨[], [(33, 126, st 107)], st 0, [.setHostname]⟩
/-- rfc5424/builder.go:2157, end of input: line 9174 -/
def r107 : Row Act := ⟨[], [(33, 126, st 108)], st 0, [.setHostname]⟩
/-- rfc5424/builder.go:2166, end of input: line 9174 -/
def r108 : Row Act := ⟨[], [(33, 126, st 109)], st 0, [.setHostname]⟩
/-- rfc5424/builder.go:2175, end of input: line 9174 -/
def r109 : Row Act := ⟨[], [(33, 126, st 110)], st 0, [.setHostname]⟩
/-- rfc5424/builder.go:2184, end of input: line 9174 -/
def r110 : Row Act := ⟨[], [(33, 126, st 111)], st 0, [.setHostname]⟩
/-- rfc5424/builder.go:2193, end of input: line 9174 -/
def r111 : Row Act := ⟨[], [(33, 126, st 112)], st 0, [.setHostname]⟩
/-- rfc5424/builder.go:2202, end of input: line 9174 -/
def r112 : Row Act := ⟨[], [(33, 126, st 113)], st 0, [.setHostname]⟩
/-- rfc5424/builder.go:2211, end of input: line 9174 -/
def r113 : Row Act := ⟨[], [(33, 126, st 114)], st 0, [.setHostname]⟩
/-- rfc5424/builder.go:2220, end of input: line 9174 -/
def r114 : Row Act := ⟨[], [(33, 126, st 115)], st 0, [.setHostname]⟩
/-- rfc5424/builder.go:2229, end of input: line 9174 -/
def r115 : Row Act := ⟨[], [(33, 126, st 116)], st 0, [.setHostname]⟩
/-- rfc5424/builder.go:2238, end of input: line 9174 -/
def r116 : Row Act := ⟨[], [(33, 126, st 117)], st 0, [.setHostname]⟩
/-- rfc5424/builder.go:2247, end of input: line 9174 -/
def r117 : Row Act := ⟨[], [(33, 126, st 118)], st 0, [.setHostname]⟩
/-- rfc5424/builder.go:2256, end of input: line 9174 -/
def r118 : Row Act := ⟨[], [(33, 126, st 119)], st 0, [.setHostname]⟩
/-- rfc5424/builder.go:2265, end of input: line 9174 -/
def r119 : Row Act := ⟨[], [(33, 126, st 120)], st 0, [.setHostname]⟩
/-- rfc5424/builder.go:2274, end of input: line 9174 -/
def r120 : Row Act := ⟨[], [(33, 126, st 121)], st 0, [.setHostname]⟩
/-- rfc5424/builder.go:2283, end of input: line 9174 -/
def r121 : Row Act := ⟨[], [(33, 126, st 122)], st 0, [.setHostname]⟩
/-- rfc5424/builder.go:2292, end of input: line 9174 -/
def r122 : Row Act := ⟨[], [(33, 126, st 123)], st 0, [.setHostname]⟩
/-- rfc5424/builder.go:2301, end of input: line 9174 -/
def r123 : Row Act := ⟨[], [(33, 126, st 124)], st 0, [.setHostname]⟩
/-- rfc5424/builder.go:2310, end of input: line 9174 -/
def r124 : Row Act := ⟨[], [(33, 126, st 125)], st 0, [.setHostname]⟩
/-- rfc5424/builder.go:2319, end of input: line 9174 -/
def r125 : Row Act := ⟨[], [(33, 126, st 126)], st 0, [.setHostname]⟩
/-- rfc5424/builder.go:2328, end of input: line 9174 -/
def r126 : Row Act := ⟨[], [(33, 126, st 127)], st 0, [.setHostname]⟩
/-- rfc5424/builder.go:2337, end of input: line 9174 -/
def r127 : Row Act := ⟨[], [(33, 126, st 128)], st 0, [.setHostname]⟩
/-- rfc5424/builder.go:2346, end of input: line 9174 -/
def r128 : Row Act := ⟨[], [(33, 126, st 129)], st 0, [.setHostname]⟩
/-- rfc5424/builder.go:2355, end of input: line 9174 -/
def r129 : Row Act := ⟨[], [(33, 126, st 130)], st 0, [.setHostname]⟩
/-- rfc5424/builder.go:2364, end of input: line 9174 -/
def r130 : Row Act := ⟨[], [(33, 126, st 131)], st 0, [.setHostname]⟩
/-- rfc5424/builder.go:2373, end of input: line 9174 -/
def r131 : Row Act := ⟨[], [(33, 126, st 132)], st 0, [.setHostname]⟩
/-- rfc5424/builder.go:2382, end of input: line 9174 -/
def r132 : Row Act := ⟨[], [(33, 126, st 133)], st 0, [.setHostname]⟩
/-- rfc5424/builder.go:2391, end of input: line 9174 -/
def r133 : Row Act := ⟨[], [(33, 126, st 134)], st 0, [.setHostname]⟩
/-- rfc5424/builder.go:2400, end of input: line 9174 -/
def r134 : Row Act := ⟨[], [(33, 126, st 135)], st 0, [.setHostname]⟩
/-- rfc5424/builder.go:2409, end of input: line 9174 -/
def r135 : Row Act := ⟨[], [(33, 126, st 136)], st 0, [.setHostname]⟩
/-- rfc5424/builder.go:2418, end of input: line 9174 -/
def r136 : Row Act := ⟨[], [(33, 126, st 137)], st 0, [.setHostname]⟩
/-- rfc5424/builder.go:2427, end of input: line 9174 -/
def r137 : Row Act := ⟨[], [(33, 126, st 138)], st 0, [.setHostname]⟩
/-- rfc5424/builder.go:2436, end of input: line 9174 -/
def r138 : Row Act := ⟨[], [(33, 126, st 139)], st 0, [.setHostname]⟩
/-- rfc5424/builder.go:2445, end of input: line 9174 -/
def r139 : Row Act := ⟨[], [(33, 126, st 140)], st 0, [.setHostname]⟩
/-- rfc5424/builder.go:2454, end of input: line 9174 -/
def r140 : Row Act := ⟨[], [(33, 126, st 141)], st 0, [.setHostname]⟩
/-- rfc5424/builder.go:2463, end of input: line 9174 -/
def r141 : Row Act := ⟨[], [(33, 126, st 142)], st 0, [.setHostname]⟩
/-- rfc5424/builder.go:2472, end of input: line 9174 -/
def r142 : Row Act := ⟨[], [(33, 126, st 143)], st 0, [.setHostname]⟩
/-- rfc5424/builder.go:2481, end of input: line 9174 -/
def r143 : Row Act := ⟨[], [(33, 126, st 144)], st 0, [.setHostname]⟩
/-- rfc5424/builder.go:2490, end of input: line 9174 -/
def r144 : Row Act := ⟨[], [(33, 126, st 145)], st 0, [.setHostname]⟩
/-- rfc5424/builder.go:2499, end of input: line 9174 -/
def r145 : Row Act := ⟨[], [(33, 126, st 146)], st 0, [.setHostname]⟩
/-- rfc5424/builder.go:2508, end of input: line 9174 -/
def r146 : Row Act := ⟨[], [(33, 126, st 147)], st 0, [.setHostname]⟩
/-- rfc5424/builder.go:2517, end of input: line 9174 -/
def r147 : Row Act := ⟨[], [(33, 126, st 148)], st 0, [.setHostname]⟩
/-- rfc5424/builder.go:2526, end of input: line 9174 -/
def r148 : Row Act := ⟨[], [(33, 126, st 149)], st 0, [.setHostname]⟩
/-- rfc5424/builder.go:2535, end of input: line 9174 -/
def r149 : Row Act := ⟨[], [(33, 126, st 150)], st 0, [.setHostname]⟩
/-- rfc5424/builder.go:2544, end of input: line 9174 -/
def r150 : Row Act := ⟨[], [(33, 126, st 151)], st 0, [.setHostname]⟩
/-- rfc5424/builder.go:2553, end of input: line 9174 -/
def r151 : Row Act := ⟨[], [(33, 126, st 152)], st 0, [.setHostname]⟩
/-- rfc5424/builder.go:2562, end of input: line 9174 -/
def r152 : Row Act := ⟨[], [(33, 126, st 153)], st 0, [.setHostname]⟩
/-- rfc5424/builder.go:2571, end of input: line 9174 -/
def r153 : Row Act := ⟨[], [(33, 126, st 154)], st 0, [.setHostname]⟩
/-- rfc5424/builder.go:2580, end of input: line 9174 -/
def r154 : Row Act := ⟨[], [(33, 126, st 155)], st 0, [.setHostname]⟩
/-- rfc5424/builder.go:2589, end of input: line 9174 -/
def r155 : Row Act := ⟨[], [(33, 126, st 156)], st 0, [.setHostname]⟩
/-- rfc5424/builder.go:2598, end of input: line 9174 -/
def r156 : Row Act := ⟨[], [(33, 126, st 157)], st 0, [.setHostname]⟩
/-- rfc5424/builder.go:2607, end of input: line 9174 -/
def r157 : Row Act := ⟨[], [(33, 126, st 158)], st 0, [.setHostname]⟩
/-- rfc5424/builder.go:2616, end of input: line 9174 -/
def r158 : Row Act := ⟨[], [(33, 126, st 159)], st 0, [.setHostname]⟩
/-- rfc5424/builder.go:2625, end of input: line 9174 -/
def r159 : Row Act := ⟨[], [(33, 126, st 160)], st 0, [.setHostname]⟩
/-- rfc5424/builder.go:2634, end of input: line 9174 -/
def r160 : Row Act := ⟨[], [(33, 126, st 161)], st 0, [.setHostname]⟩
/-- rfc5424/builder.go:2643, end of input: line 9174 -/
def r161 : Row Act := ⟨[], [(33, 126, st 162)], st 0, [.setHostname]⟩
/-- rfc5424/builder.go:2652, end of input: line 9174 -/
def r162 : Row Act := ⟨[], [(33, 126, st 163)], st 0, [.setHostname]⟩
/-- rfc5424/builder.go:2661, end of input: line 9174 -/
def r163 : Row Act := ⟨[], [(33, 126, st 164)], st 0, [.setHostname]⟩
/-- rfc5424/builder.go:2670, end of input: line 9174 -/
def r164 : Row Act := ⟨[], [(33, 126, st 165)], st 0, [.setHostname]⟩
/-- rfc5424/builder.go:2679, end of input: line 9174 -/
def r165 : Row Act := ⟨[], [(33, 126, st 166)], st 0, [.setHostname]⟩
/-- rfc5424/builder.go:2688, end of input: line 9174 -/
def r166 : Row Act := ⟨[], [(33, 126, st 167)], st 0, [.setHostname]⟩
/-- rfc5424/builder.go:2697, end of input: line 9174 -/
def r167 : Row Act := ⟨[], [(33, 126, st 168)], st 0, [.setHostname]⟩
/-- rfc5424/builder.go:2706, end of input: line 9174 -/
def r168 : Row Act := ⟨[], [(33, 126, st 169)], st 0, [.setHostname]⟩
/-- rfc5424/builder.go:2715, end of input: line 9174 -/
def r169 : Row Act := ⟨[], [(33, 126, st 170)], st 0, [.setHostname]⟩
/-- rfc5424/builder.go:2724, end of input: line 9174 -/
def r170 : Row Act := ⟨[], [(33, 126, st 171)], st 0, [.setHostname]⟩
/-- rfc5424/builder.go:2733, end of input: line 9174 -/
def r171 : Row Act := ⟨[], [(33, 126, st 172)], st 0, [.setHostname]⟩
/-- rfc5424/builder.go:2742, end of input: line 9174 -/
def r172 : Row Act := ⟨[], [(33, 126, st 173)], st 0, [.setHostname]⟩
/-- rfc5424/builder.go:2751, end of input: line 9174 -/
def r173 : Row Act := ⟨[], [(33, 126, st 174)], st 0, [.setHostname]⟩
/-- rfc5424/builder.go:2760, end of input: line 9174 -/
def r174 : Row Act := ⟨[], [(33, 126, st 175)], st 0, [.setHostname]⟩
/-- rfc5424/builder.go:2769, end of input: line 9174 -/
def r175 : Row Act := ⟨[], [(33, 126, st 176)], st 0, [.setHostname]⟩
/-- rfc5424/builder.go:2778, end of input: line 9174 -/
def r176 : Row Act := ⟨[], [(33, 126, st 177)], st 0, [.setHostname]⟩
/-- rfc5424/builder.go:2787, end of input: line 9174 -/
def r177 : Row Act := ⟨[], [(33, 126, st 178)], st 0, [.setHostname]⟩
/-- rfc5424/builder.go:2796, end of input: line 9174 -/
def r178 : Row Act := ⟨[], [(33, 126, st 179)], st 0, [.setHostname]⟩
/-- rfc5424/builder.go:2805, end of input: line 9174 -/
def r179 : Row Act := ⟨[], [(33, 126, st 180)], st 0, [.setHostname]⟩
/-- rfc5424/builder.go:2814, end of input: line 9174 -/
def r180 : Row Act := ⟨[], [(33, 126, st 181)], st 0, [.setHostname]⟩
/-- rfc5424/builder.go:2823, end of input: line 9174 -/
def r181 : Row Act := ⟨[], [(33, 126, st 182)], st 0, [.setHostname]⟩
/-- rfc5424/builder.go:2832, end of input: line 9174 -/
def r182 : Row Act := ⟨[], [(33, 126, st 183)], st 0, [.setHostname]⟩
/-- rfc5424/builder.go:2841, end of input: line 9174 -/
def r183 : Row Act := ⟨[], [(33, 126, st 184)], st 0, [.setHostname]⟩
/-- rfc5424/builder.go:2850, end of input: line 9174 -/
def r184 : Row Act := ⟨[], [(33, 126, st 185)], st 0, [.setHostname]⟩
/-- rfc5424/builder.go:2859, end of input: line 9174 -/
def r185 : Row Act := ⟨[], [(33, 126, st 186)], st 0, [.setHostname]⟩
/-- rfc5424/builder.go:2868, end of input: line 9174 -/
def r186 : Row Act := ⟨[], [(33, 126, st 187)], st 0, [.setHostname]⟩
/-- rfc5424/builder.go:2877, end of input: line 9174 -/
def r187 : Row Act := ⟨[], [(33, 126, st 188)], st 0, [.setHostname]⟩
/-- rfc5424/builder.go:2886, end of input: line 9174 -/
def r188 : Row Act := ⟨[], [(33, 126, st 189)], st 0, [.setHostname]⟩
/-- rfc5424/builder.go:2895, end of input: line 9174 -/
def r189 : Row Act := ⟨[], [(33, 126, st 190)], st 0, [.setHostname]⟩
/-- rfc5424/builder.go:2904, end of input: line 9174 -/
def r190 : Row Act := ⟨[], [(33, 126, st 191)], st 0, [.setHostname]⟩
/-- rfc5424/builder.go:2913, end of input: line 9174 -/
def r191 : Row Act := ⟨[], [(33, 126, st 192)], st 0, [.setHostname]⟩
/-- rfc5424/builder.go:2922, end of input: line 9174 -/
def r192 : Row Act := ⟨[], [(33, 126, st 193)], st 0, [.setHostname]⟩
/-- rfc5424/builder.go:2931, end of input: line 9174 -/
def r193 : Row Act := ⟨[], [(33, 126, st 194)], st 0, [.setHostname]⟩
/-- rfc5424/builder.go:2940, end of input: line 9174 -/
def r194 : Row Act := ⟨[], [(33, 126, st 195)], st 0, [.setHostname]⟩
/-- rfc5424/builder.go:2949, end of input: line 9174 -/
def r195 : Row Act := ⟨[], [(33, 126, st 196)], st 0, [.setHostname]⟩
/-- rfc5424/builder.go:2958, end of input: line 9174 -/
def r196 : Row Act := ⟨[], [(33, 126, st 197)], st 0, [.setHostname]⟩
/-- rfc5424/builder.go:2967, end of input: line 9174 -/
def r197 : Row Act := ⟨[], [(33, 126, st 198)], st 0, [.setHostname]⟩
/-- rfc5424/builder.go:2976, end of input: line 9174 -/
def r198 : Row Act := ⟨[], [(33, 126, st 199)], st 0, [.setHostname]⟩
/-- rfc5424/builder.go:2985, end of input: line 9174 -/
def r199 : Row Act := ⟨[], [(33, 126, st 200)], st 0, [.setHostname]⟩
/-- rfc5424/builder.go:2994, end of input: line 9174 -/
def r200 : Row Act := ⟨[], [(33, 126, st 201)], st 0, [.setHostname]⟩
/-- rfc5424/builder.go:3003, end of input: line 9174 -/
def r201 : Row Act := ⟨[], [(33, 126, st 202)], st 0, [.setHostname]⟩
/-- rfc5424/builder.go:3012, end of input: line 9174 -/
def r202 : Row Act := ⟨[], [(33, 126, st 203)], st 0, [.setHostname]⟩
/-- rfc5424/builder.go:3021, end of input: line 9174 -/
def r203 : Row Act := ⟨[], [(33, 126, st 204)], st 0, [.setHostname]⟩
/-- rfc5424/builder.go:3030, end of input: line 9174 -/
def r204 : Row Act := ⟨[], [(33, 126, st 205)], st 0, [.setHostname]⟩
/-- rfc5424/builder.go:3039, end of input: line 9174 -/
def r205 : Row Act := ⟨[], [(33, 126, st 206)], st 0, [.setHostname]⟩
/-- rfc5424/builder.go:3048, end of input: line 9174 -/
def r206 : Row Act := ⟨[], [(33, 126, st 207)], st 0, [.setHostname]⟩
/-- rfc5424/builder.go:3057, end of input: line 9174 -/
def r207 : Row Act := ⟨[], [(33, 126, st 208)], st 0, [.setHostname]⟩
/-- rfc5424/builder.go:3066, end of input: line 9174 -/
def r208 : Row Act := ⟨[], [(33, 126, st 209)], st 0, [.setHostname]⟩
/-- rfc5424/builder.go:3075, end of input: line 9174 -/
def r209 : Row Act := ⟨[], [(33, 126, st 210)], st 0, [.setHostname]⟩
/-- rfc5424/builder.go:3084, end of input: line 9174 -/
def r210 : Row Act := ⟨[], [(33, 126, st 211)], st 0, [.setHostname]⟩
/-- rfc5424/builder.go:3093, end of input: line 9174 -/
def r211 : Row Act := ⟨[], [(33, 126, st 212)], st 0, [.setHostname]⟩
/-- rfc5424/builder.go:3102, end of input: line 9174 -/
def r212 : Row Act := ⟨[], [(33, 126, st 213)], st 0, [.setHostname]⟩
/-- rfc5424/builder.go:3111, end of input: line 9174 -/
def r213 : Row Act := ⟨[], [(33, 126, st 214)], st 0, [.setHostname]⟩
/-- rfc5424/builder.go:3120, end of input: line 9174 -/
def r214 : Row Act := ⟨[], [(33, 126, st 215)], st 0, [.setHostname]⟩
/-- rfc5424/builder.go:3129, end of input: line 9174 -/
def r215 : Row Act := ⟨[], [(33, 126, st 216)], st 0, [.setHostname]⟩
/-- rfc5424/builder.go:3138, end of input: line 9174 -/
def r216 : Row Act := ⟨[], [(33, 126, st 217)], st 0, [.setHostname]⟩
/-- rfc5424/builder.go:3147, end of input: line 9174 -/
def r217 : Row Act := ⟨[], [(33, 126, st 218)], st 0, [.setHostname]⟩
/-- rfc5424/builder.go:3156, end of input: line 9174 -/
def r218 : Row Act := ⟨[], [(33, 126, st 219)], st 0, [.setHostname]⟩
/-- rfc5424/builder.go:3165, end of input: line 9174 -/
def r219 : Row Act := ⟨[], [(33, 126, st 220)], st 0, [.setHostname]⟩
/-- rfc5424/builder.go:3174, end of input: line 9174 -/
def r220 : Row Act := ⟨[], [(33, 126, st 221)], st 0, [.setHostname]⟩
/-- rfc5424/builder.go:3183, end of input: line 9174 -/
def r221 : Row Act := ⟨[], [(33, 126, st 222)], st 0, [.setHostname]⟩
/-- rfc5424/builder.go:3192, end of input: line 9174 -/
def r222 : Row Act := ⟨[], [(33, 126, st 223)], st 0, [.setHostname]⟩
/-- rfc5424/builder.go:3201, end of input: line 9174 -/
def r223 : Row Act := ⟨[], [(33, 126, st 224)], st 0, [.setHostname]⟩
/-- rfc5424/builder.go:3210, end of input: line 9174 -/
def r224 : Row Act := ⟨[], [(33, 126, st 225)], st 0, [.setHostname]⟩
/-- rfc5424/builder.go:3219, end of input: line 9174 -/
def r225 : Row Act := ⟨[], [(33, 126, st 226)], st 0, [.setHostname]⟩
/-- rfc5424/builder.go:3228, end of input: line 9174 -/
def r226 : Row Act := ⟨[], [(33, 126, st 227)], st 0, [.setHostname]⟩
/-- rfc5424/builder.go:3237, end of input: line 9174 -/
def r227 : Row Act := ⟨[], [(33, 126, st 228)], st 0, [.setHostname]⟩
/-- rfc5424/builder.go:3246, end of input: line 9174 -/
def r228 : Row Act := ⟨[], [(33, 126, st 229)], st 0, [.setHostname]⟩
/-- rfc5424/builder.go:3255, end of input: line 9174 -/
def r229 : Row Act := ⟨[], [(33, 126, st 230)], st 0, [.setHostname]⟩
/-- rfc5424/builder.go:3264, end of input: line 9174 -/
def r230 : Row Act := ⟨[], [(33, 126, st 231)], st 0, [.setHostname]⟩
/-- rfc5424/builder.go:3273, end of input: line 9174 -/
def r231 : Row Act := ⟨[], [(33, 126, st 232)], st 0, [.setHostname]⟩
/-- rfc5424/builder.go:3282, end of input: line 9174 -/
def r232 : Row Act := ⟨[], [(33, 126, st 233)], st 0, [.setHostname]⟩
/-- rfc5424/builder.go:3291, end of input: line 9174 -/
def r233 : Row Act := ⟨[], [(33, 126, st 234)], st 0, [.setHostname]⟩
/-- rfc5424/builder.go:3300, end of input: line 9174 -/
def r234 : Row Act := ⟨[], [(33, 126, st 235)], st 0, [.setHostname]⟩
/-- rfc5424/builder.go:3309, end of input: line 9174 -/
def r235 : Row Act := ⟨[], [(33, 126, st 236)], st 0, [.setHostname]⟩
/-- rfc5424/builder.go:3318, end of input: line 9174 -/
def r236 : Row Act := ⟨[], [(33, 126, st 237)], st 0, [.setHostname]⟩
/-- rfc5424/builder.go:3327, end of input: line 9174 -/
def r237 : Row Act := ⟨[], [(33, 126, st 238)], st 0, [.setHostname]⟩
/-- rfc5424/builder.go:3336, end of input: line 9174 -/
def r238 : Row Act := ⟨[], [(33, 126, st 239)], st 0, [.setHostname]⟩
/-- rfc5424/builder.go:3345, end of input: line 9174 -/
def r239 : Row Act := ⟨[], [(33, 126, st 240)], st 0, [.setHostname]⟩
/-- rfc5424/builder.go:3354, end of input: line 9174 -/
def r240 : Row Act := ⟨[], [(33, 126, st 241)], st 0, [.setHostname]⟩
/-- rfc5424/builder.go:3363, end of input: line 9174 -/
def r241 : Row Act := ⟨[], [(33, 126, st 242)], st 0, [.setHostname]⟩
/-- rfc5424/builder.go:3372, end of input: line 9174 -/
def r242 : Row Act := ⟨[], [(33, 126, st 243)], st 0, [.setHostname]⟩
/-- rfc5424/builder.go:3381, end of input: line 9174 -/
def r243 : Row Act := ⟨[], [(33, 126, st 244)], st 0, [.setHostname]⟩
/-- rfc5424/builder.go:3390, end of input: line 9174 -/
def r244 : Row Act := ⟨[], [(33, 126, st 245)], st 0, [.setHostname]⟩
/-- rfc5424/builder.go:3399, end of input: line 9174 -/
def r245 : Row Act := ⟨[], [(33, 126, st 246)], st 0, [.setHostname]⟩
/-- rfc5424/builder.go:3408, end of input: line 9174 -/
def r246 : Row Act := ⟨[], [(33, 126, st 247)], st 0, [.setHostname]⟩
/-- rfc5424/builder.go:3417, end of input: line 9174 -/
def r247 : Row Act := ⟨[], [(33, 126, st 248)], st 0, [.setHostname]⟩
/-- rfc5424/builder.go:3426, end of input: line 9174 -/
def r248 : Row Act := ⟨[], [(33, 126, st 249)], st 0, [.setHostname]⟩
/-- rfc5424/builder.go:3435, end of input: line 9174 -/
def r249 : Row Act := ⟨[], [(33, 126, st 250)], st 0, [.setHostname]⟩
/-- rfc5424/builder.go:3444, end of input: line 9174 -/
def r250 : Row Act := ⟨[], [(33, 126, st 251)], st 0, [.setHostname]⟩
/-- rfc5424/builder.go:3453, end of input: line 9174 -/
def r251 : Row Act := ⟨[], [(33, 126, st 252)], st 0, [.setHostname]⟩
/-- rfc5424/builder.go:3462, end of input: line 9174 -/
def r252 : Row Act := ⟨[], [(33, 126, st 253)], st 0, [.setHostname]⟩
/-- rfc5424/builder.go:3471, end of input: line 9174 -/
def r253 : Row Act := ⟨[], [(33, 126, st 254)], st 0, [.setHostname]⟩
/-- rfc5424/builder.go:3480, end of input: line 9174 -/
def r254 : Row Act := ⟨[], [(33, 126, st 255)], st 0, [.setHostname]⟩
/-- rfc5424/builder.go:3489, end of input: line 9174 -/
def r255 : Row Act := ⟨[], [(33, 126, st 256)], st 0, [.setHostname]⟩
/-- rfc5424/builder.go:3498, end of input: line 9174 -/
def r256 : Row Act := ⟨[], [(33, 126, st 257)], st 0, [.setHostname]⟩
/-- rfc5424/builder.go:3507, end of input: line 9174 -/
def r257 : Row Act := ⟨[], [(33, 126, st 258)], st 0, [.setHostname]⟩
/-- rfc5424/builder.go:3516, end of input: line 9174 -/
def r258 : Row Act := ⟨[], [(33, 126, st 259)], st 0, [.setHostname]⟩
/-- rfc5424/builder.go:3525, end of input: line 9174 -/
def r259 : Row Act := ⟨[], [(33, 126, st 260)], st 0, [.setHostname]⟩
/-- rfc5424/builder.go:3534, end of input: line 9174 -/
def r260 : Row Act := ⟨[], [(33, 126, st 261)], st 0, [.setHostname]⟩
/-- rfc5424/builder.go:3543, end of input: line 9174 -/
def r261 : Row Act := ⟨[], [(33, 126, st 262)], st 0, [.setHostname]⟩
/-- rfc5424/builder.go:3552, end of input: line 9174 -/
def r262 : Row Act := ⟨[], [(33, 126, st 263)], st 0, [.setHostname]⟩
/-- rfc5424/builder.go:3561, end of input: line 9174 -/
def r263 : Row Act := ⟨[], [(33, 126, st 264)], st 0, [.setHostname]⟩
/-- rfc5424/builder.go:3570, end of input: line 9174 -/
def r264 : Row Act := ⟨[], [(33, 126, st 265)], st 0, [.setHostname]⟩
/-- rfc5424/builder.go:3579, end of input: line 9174 -/
def r265 : Row Act := ⟨[], [(33, 126, st 266)], st 0, [.setHostname]⟩
/-- rfc5424/builder.go:3588, end of input: line 9174 -/
def r266 : Row Act := ⟨[], [(33, 126, st 267)], st 0, [.setHostname]⟩
/-- rfc5424/builder.go:3597, end of input: line 9174 -/
def r267 : Row Act := ⟨[], [(33, 126, st 268)], st 0, [.setHostname]⟩
/-- rfc5424/builder.go:3606, end of input: line 9174 -/
def r268 : Row Act := ⟨[], [(33, 126, st 269)], st 0, [.setHostname]⟩
/-- rfc5424/builder.go:3615, end of input: line 9174 -/
def r269 : Row Act := ⟨[], [(33, 126, st 270)], st 0, [.setHostname]⟩
/-- rfc5424/builder.go:3624, end of input: line 9174 -/
def r270 : Row Act := ⟨[], [(33, 126, st 271)], st 0, [.setHostname]⟩
/-- rfc5424/builder.go:3633, end of input: line 9174 -/
def r271 : Row Act := ⟨[], [(33, 126, st 272)], st 0, [.setHostname]⟩
/-- rfc5424/builder.go:3642, end of input: line 9174 -/
def r272 : Row Act := ⟨[], [(33, 126, st 273)], st 0, [.setHostname]⟩
/-- rfc5424/builder.go:3651, end of input: line 9174 -/
def r273 : Row Act := ⟨[], [(33, 126, st 274)], st 0, [.setHostname]⟩
/-- rfc5424/builder.go:3660, end of input: line 9174 -/
def r274 : Row Act := ⟨[], [(33, 126, st 275)], st 0, [.setHostname]⟩
/-- rfc5424/builder.go:3669, end of input: line 9174 -/
def r275 : Row Act := ⟨[], [(33, 126, st 276)], st 0, [.setHostname]⟩
/-- rfc5424/builder.go:3678, end of input: line 9174 -/
def r276 : Row Act := ⟨[], [(33, 126, st 277)], st 0, [.setHostname]⟩
/-- rfc5424/builder.go:3687, end of input: line 9174 -/
def r277 : Row Act := ⟨[], [(33, 126, st 278)], st 0, [.setHostname]⟩
/-- rfc5424/builder.go:3696, end of input: line 9174 -/
def r278 : Row Act := ⟨[], [(33, 126, st 279)], st 0, [.setHostname]⟩
/-- rfc5424/builder.go:3705, end of input: line 9174 -/
def r279 : Row Act := ⟨[], [(33, 126, st 280)], st 0, [.setHostname]⟩
/-- rfc5424/builder.go:3714, end of input: line 9174 -/
def r280 : Row Act := ⟨[], [(33, 126, st 281)], st 0, [.setHostname]⟩
/-- rfc5424/builder.go:3723, end of input: line 9174 -/
def r281 : Row Act := ⟨[], [(33, 126, st 282)], st 0, [.setHostname]⟩
/-- rfc5424/builder.go:3732, end of input: line 9174 -/
def r282 : Row Act := ⟨[], [(33, 126, st 283)], st 0, [.setHostname]⟩
/-- rfc5424/builder.go:3741, end of input: line 9174 -/
def r283 : Row Act := ⟨[], [(33, 126, st 284)], st 0, [.setHostname]⟩
/-- rfc5424/builder.go:3750, end of input: line 9174 -/
def r284 : Row Act := ⟨[], [(33, 126, st 285)], st 0, [.setHostname]⟩
/-- rfc5424/builder.go:3759, end of input: line 9174 -/
def r285 : Row Act := ⟨[], [(33, 126, st 286)], st 0, [.setHostname]⟩
/-- rfc5424/builder.go:3768, end of input: line 9174 -/
def r286 : Row Act := ⟨[], [(33, 126, st 287)], st 0, [.setHostname]⟩
/-- rfc5424/builder.go:3777, end of input: line 9174 -/
def r287 : Row Act := ⟨[], [(33, 126, st 288)], st 0, [.setHostname]⟩
/-- rfc5424/builder.go:3786, end of input: line 9174 -/
def r288 : Row Act := ⟨[], [(33, 126, st 289)], st 0, [.setHostname]⟩
/-- rfc5424/builder.go:3795, end of input: line 9174 -/
def r289 : Row Act := ⟨[], [(33, 126, st 290)], st 0, [.setHostname]⟩
/-- rfc5424/builder.go:3804, end of input: line 9174 -/
def r290 : Row Act := ⟨[], [(33, 126, st 291)], st 0, [.setHostname]⟩
/-- rfc5424/builder.go:3813, end of input: line 9174 -/
def r291 : Row Act := ⟨[], [(33, 126, st 292)], st 0, [.setHostname]⟩
/-- rfc5424/builder.go:3822, end of input: line 9174 -/
def r292 : Row Act := ⟨[], [(33, 126, st 293)], st 0, [.setHostname]⟩
/-- rfc5424/builder.go:3831, end of input: line 9174 -/
def r293 : Row Act := ⟨[], [(33, 126, st 294)], st 0, [.setHostname]⟩
/-- rfc5424/builder.go:3840, end of input: line 9174 -/
def r294 : Row Act := ⟨[], [(33, 126, st 295)], st 0, [.setHostname]⟩
/-- rfc5424/builder.go:3849, end of input: line 9174 -/
def r295 : Row Act := ⟨[], [(33, 126, st 296)], st 0, [.setHostname]⟩
/-- rfc5424/builder.go:3858, end of input: line 9174 -/
def r296 : Row Act := ⟨[], [(33, 126, st 297)], st 0, [.setHostname]⟩
/-- rfc5424/builder.go:3867, end of input: line 9174 -/
def r297 : Row Act := ⟨[], [(33, 126, st 298)], st 0, [.setHostname]⟩
/-- rfc5424/builder.go:3876, end of input: line 9174 -/
def r298 : Row Act := ⟨[], [(33, 126, st 299)], st 0, [.setHostname]⟩
/-- rfc5424/builder.go:3885, end of input: line 9174 -/
def r299 : Row Act := ⟨[], [(33, 126, st 300)], st 0, [.setHostname]⟩
/-- rfc5424/builder.go:3894, end of input: line 9174 -/
def r300 : Row Act := ⟨[], [(33, 126, st 301)], st 0, [.setHostname]⟩
/-- rfc5424/builder.go:3903, end of input: line 9174 -/
def r301 : Row Act := ⟨[], [(33, 126, st 302)], st 0, [.setHostname]⟩
/-- rfc5424/builder.go:3912, end of input: line 9174 -/
def r302 : Row Act := ⟨[], [(33, 126, st 303)], st 0, [.setHostname]⟩
/-- rfc5424/builder.go:3921, end of input: line 9174 -/
def r303 : Row Act := ⟨[], [(33, 126, st 304)], st 0, [.setHostname]⟩
/-- rfc5424/builder.go:3930, end of input: line 9174 -/
def r304 : Row Act := ⟨[], [(33, 126, st 305)], st 0, [.setHostname]⟩
/-- rfc5424/builder.go:3939, end of input: line 9174 -/
def r305 : Row Act := ⟨[], [(33, 126, st 306)], st 0, [.setHostname]⟩
/-- rfc5424/builder.go:3948, end of input: line 9174 -/
def r306 : Row Act := ⟨[], [(33, 126, st 307)], st 0, [.setHostname]⟩
/-- rfc5424/builder.go:3957, end of input: line 9174 -/
def r307 : Row Act := ⟨[], [(33, 126, st 308)], st 0, [.setHostname]⟩
/-- rfc5424/builder.go:3966, end of input: line 9174 -/
def r308 : Row Act := ⟨[], [(33, 126, st 309)], st 0, [.setHostname]⟩
/-- rfc5424/builder.go:3975, end of input: line 9174 -/
def r309 : Row Act := ⟨[], [], st 0, [.setHostname]⟩
/-- rfc5424/builder.go:3991, end of input: line 9180 -/
def r310 : Row Act := ⟨[], [(33, 126, st 311)], st 0, [.setAppname]⟩
/-- rfc5424/builder.go:4000, end of input: line 9180 -/
def r311 : Row Act := ⟨[], [(33, 126, st 312)], st 0, [.setAppname]⟩
/-- rfc5424/builder.go:4009, end of input: line 9180 -/
def r312 : Row Act := ⟨[], [(33, 126, st 313)], st 0, [.setAppname]⟩
/-- rfc5424/builder.go:4018, end of input: line 9180 -/
def r313 : Row Act := ⟨[], [(33, 126, st 314)], st 0, [.setAppname]⟩
/-- rfc5424/builder.go:4027, end of input: line 9180 -/
def r314 : Row Act := ⟨[], [(33, 126, st 315)], st 0, [.setAppname]⟩
/-- rfc5424/builder.go:4036, end of input: line 9180 -/
def r315 : Row Act := ⟨[], [(33, 126, st 316)], st 0, [.setAppname]⟩
/-- rfc5424/builder.go:4045, end of input: line 9180 -/
def r316 : Row Act := ⟨[], [(33, 126, st 317)], st 0, [.setAppname]⟩
/-- rfc5424/builder.go:4054, end of input: line 9180 -/
def r317 : Row Act := ⟨[], [(33, 126, st 318)], st 0, [.setAppname]⟩
/-- rfc5424/builder.go:4063, end of input: line 9180 -/
def r318 : Row Act := ⟨[], [(33, 126, st 319)], st 0, [.setAppname]⟩
/-- rfc5424/builder.go:4072, end of input: line 9180 -/
def r319 : Row Act := ⟨[], [(33, 126, st 320)], st 0, [.setAppname]⟩
/-- rfc5424/builder.go:4081, end of input: line 9180 -/
def r320 : Row Act := ⟨[], [(33, 126, st 321)], st 0, [.setAppname]⟩
/-- rfc5424/builder.go:4090, end of input: line 9180 -/
def r321 : Row Act := ⟨[], [(33, 126, st 322)], st 0, [.setAppname]⟩
/-- rfc5424/builder.go:4099, end of input: line 9180 -/
def r322 : Row Act := ⟨[], [(33, 126, st 323)], st 0, [.setAppname]⟩
/-- rfc5424/builder.go:4108, end of input: line 9180 -/
def r323 : Row Act := ⟨[], [(33, 126, st 324)], st 0, [.setAppname]⟩
/-- rfc5424/builder.go:4117, end of input: line 9180 -/
def r324 : Row Act := ⟨[], [(33, 126, st 325)], st 0, [.setAppname]⟩
/-- rfc5424/builder.go:4126, end of input: line 9180 -/
def r325 : Row Act := ⟨[], [(33, 126, st 326)], st 0, [.setAppname]⟩
/-- rfc5424/builder.go:4135, end of input: line 9180 -/
def r326 : Row Act := ⟨[], [(33, 126, st 327)], st 0, [.setAppname]⟩
/-- rfc5424/builder.go:4144, end of input: line 9180 -/
def r327 : Row Act := ⟨[], [(33, 126, st 328)], st 0, [.setAppname]⟩
/-- rfc5424/builder.go:4153, end of input: line 9180 -/
def r328 : Row Act := ⟨[], [(33, 126, st 329)], st 0, [.setAppname]⟩
/-- rfc5424/builder.go:4162, end of input: line 9180 -/
def r329 : Row Act := ⟨[], [(33, 126, st 330)], st 0, [.setAppname]⟩
/-- rfc5424/builder.go:4171, end of input: line 9180 -/
def r330 : Row Act := ⟨[], [(33, 126, st 331)], st 0, [.setAppname]⟩
/-- rfc5424/builder.go:4180, end of input: line 9180 -/
def r331 : Row Act := ⟨[], [(33, 126, st 332)], st 0, [.setAppname]⟩
/-- rfc5424/builder.go:4189, end of input: line 9180 -/
def r332 : Row Act := ⟨[], [(33, 126, st 333)], st 0, [.setAppname]⟩
/-- rfc5424/builder.go:4198, end of input: line 9180 -/
def r333 : Row Act := ⟨[], [(33, 126, st 334)], st 0, [.setAppname]⟩
/-- rfc5424/builder.go:4207, end of input: line 9180 -/
def r334 : Row Act := ⟨[], [(33, 126, st 335)], st 0, [.setAppname]⟩
/-- rfc5424/builder.go:4216, end of input: line 9180 -/
def r335 : Row Act := ⟨[], [(33, 126, st 336)], st 0, [.setAppname]⟩
/-- rfc5424/builder.go:4225, end of input: line 9180 -/
def r336 : Row Act := ⟨[], [(33, 126, st 337)], st 0, [.setAppname]⟩
/-- rfc5424/builder.go:4234, end of input: line 9180 -/
def r337 : Row Act := ⟨[], [(33, 126, st 338)], st 0, [.setAppname]⟩
/-- rfc5424/builder.go:4243, end of input: line 9180 -/
def r338 : Row Act := ⟨[], [(33, 126, st 339)], st 0, [.setAppname]⟩
/-- rfc5424/builder.go:4252, end of input: line 9180 -/
def r339 : Row Act := ⟨[], [(33, 126, st 340)], st 0, [.setAppname]⟩
/-- rfc5424/builder.go:4261, end of input: line 9180 -/
def r340 : Row Act := ⟨[], [(33, 126, st 341)], st 0, [.setAppname]⟩
/-- rfc5424/builder.go:4270, end of input: line 9180 -/
def r341 : Row Act := ⟨[], [(33, 126, st 342)], st 0, [.setAppname]⟩
/-- rfc5424/builder.go:4279, end of input: line 9180 -/
def r342 : Row Act := ⟨[], [(33, 126, st 343)], st 0, [.setAppname]⟩
/-- rfc5424/builder.go:4288, end of input: line 9180 -/
def r343 : Row Act := ⟨[], [(33, 126, st 344)], st 0, [.setAppname]⟩
/-- rfc5424/builder.go:4297, end of input: line 9180 -/
def r344 : Row Act := ⟨[], [(33, 126, st 345)], st 0, [.setAppname]⟩
/-- rfc5424/builder.go:4306, end of input: line 9180 -/
def r345 : Row Act := ⟨[], [(33, 126, st 346)], st 0, [.setAppname]⟩
/-- rfc5424/builder.go:4315, end of input: line 9180 -/
def r346 : Row Act := ⟨[], [(33, 126, st 347)], st 0, [.setAppname]⟩
/-- rfc5424/builder.go:4324, end of input: line 9180 -/
def r347 : Row Act := ⟨[], [(33, 126, st 348)], st 0, [.setAppname]⟩
/-- rfc5424/builder.go:4333, end of input: line 9180 -/
def r348 : Row Act := ⟨[], [(33, 126, st 349)], st 0, [.setAppname]⟩
/-- rfc5424/builder.go:4342, end of input: line 9180 -/
def r349 : Row Act := ⟨[], [(33, 126, st 350)], st 0, [.setAppname]⟩
/-- rfc5424/builder.go:4351, end of input: line 9180 -/
def r350 : Row Act := ⟨[], [(33, 126, st 351)], st 0, [.setAppname]⟩
/-- rfc5424/builder.go:4360, end of input: line 9180 -/
def r351 : Row Act := ⟨[], [(33, 126, st 352)], st 0, [.setAppname]⟩
/-- rfc5424/builder.go:4369, end of input: line 9180 -/
def r352 : Row Act := ⟨[], [(33, 126, st 353)], st 0, [.setAppname]⟩
/-- rfc5424/builder.go:4378, end of input: line 9180 -/
def r353 : Row Act := ⟨[], [(33, 126, st 354)], st 0, [.setAppname]⟩
/-- rfc5424/builder.go:4387, end of input: line 9180 -/
def r354 : Row Act := ⟨[], [(33, 126, st 355)], st 0, [.setAppname]⟩
/-- rfc5424/builder.go:4396, end of input: line 9180 -/
def r355 : Row Act := ⟨[], [(33, 126, st 356)], st 0, [.setAppname]⟩
/-- rfc5424/builder.go:4405, end of input: line 9180 -/
def r356 : Row Act := ⟨[], [(33, 126, st 357)], st 0, [.setAppname]⟩
/-- rfc5424/builder.go:4414, end of input: line 9180 -/
def r357 : Row Act := ⟨[], [], st 0, [.setAppname]⟩
/-- rfc5424/builder.go:4430, end of input: line 9186 -/
def r358 : Row Act := ⟨[], [(33, 126, st 359)], st 0, [.setProcid]⟩
/-- rfc5424/builder.go:4439, end of input: line 9186 -/
def r359 : Row Act := ⟨[], [(33, 126, st 360)], st 0, [.setProcid]⟩
/-- rfc5424/builder.go:4448, end of input: line 9186 -/
def r360 : Row Act := ⟨[], [(33, 126, st 361)], st 0, [.setProcid]⟩
/-- rfc5424/builder.go:4457, end of input: line 9186 -/
def r361 : Row Act := ⟨[], [(33, 126, st 362)], st 0, [.setProcid]⟩
/-- rfc5424/builder.go:4466, end of input: line 9186 -/
def r362 : Row Act := ⟨[], [(33, 126, st 363)], st 0, [.setProcid]⟩
/-- rfc5424/builder.go:4475, end of input: line 9186 -/
def r363 : Row Act := ⟨[], [(33, 126, st 364)], st 0, [.setProcid]⟩
/-- rfc5424/builder.go:4484, end of input: line 9186 -/
def r364 : Row Act := ⟨[], [(33, 126, st 365)], st 0, [.setProcid]⟩
/-- rfc5424/builder.go:4493, end of input: line 9186 -/
def r365 : Row Act := ⟨[], [(33, 126, st 366)], st 0, [.setProcid]⟩
/-- rfc5424/builder.go:4502, end of input: line 9186 -/
def r366 : Row Act := ⟨[], [(33, 126, st 367)], st 0, [.setProcid]⟩
/-- rfc5424/builder.go:4511, end of input: line 9186 -/
def r367 : Row Act := ⟨[], [(33, 126, st 368)], st 0, [.setProcid]⟩
/-- rfc5424/builder.go:4520, end of input: line 9186 -/
def r368 : Row Act := ⟨[], [(33, 126, st 369)], st 0, [.setProcid]⟩
/-- rfc5424/builder.go:4529, end of input: line 9186 -/
def r369 : Row Act := ⟨[], [(33, 126, st 370)], st 0, [.setProcid]⟩
/-- rfc5424/builder.go:4538, end of input: line 9186 -/
def r370 : Row Act := ⟨[], [(33, 126, st 371)], st 0, [.setProcid]⟩
/-- rfc5424/builder.go:4547, end of input: line 9186 -/
def r371 : Row Act := ⟨[], [(33, 126, st 372)], st 0, [.setProcid]⟩
/-- rfc5424/builder.go:4556, end of input: line 9186 -/
def r372 : Row Act := ⟨[], [(33, 126, st 373)], st 0, [.setProcid]⟩
/-- rfc5424/builder.go:4565, end of input: line 9186 -/
def r373 : Row Act := ⟨[], [(33, 126, st 374)], st 0, [.setProcid]⟩
/-- rfc5424/builder.go:4574, end of input: line 9186 -/
def r374 : Row Act := ⟨[], [(33, 126, st 375)], st 0, [.setProcid]⟩
/-- rfc5424/builder.go:4583, end of input: line 9186 -/
def r375 : Row Act := ⟨[], [(33, 126, st 376)], st 0, [.setProcid]⟩
/-- rfc5424/builder.go:4592, end of input: line 9186 -/
def r376 : Row Act := ⟨[], [(33, 126, st 377)], st 0, [.setProcid]⟩
/-- rfc5424/builder.go:4601, end of input: line 9186 -/
def r377 : Row Act := ⟨[], [(33, 126, st 378)], st 0, [.setProcid]⟩
/-- rfc5424/builder.go:4610, end of input: line 9186 -/
def r378 : Row Act := ⟨[], [(33, 126, st 379)], st 0, [.setProcid]⟩
/-- rfc5424/builder.go:4619, end of input: line 9186 -/
def r379 : Row Act := ⟨[], [(33, 126, st 380)], st 0, [.setProcid]⟩
/-- rfc5424/builder.go:4628, end of input: line 9186 -/
def r380 : Row Act := ⟨[], [(33, 126, st 381)], st 0, [.setProcid]⟩
/-- rfc5424/builder.go:4637, end of input: line 9186 -/
def r381 : Row Act := ⟨[], [(33, 126, st 382)], st 0, [.setProcid]⟩
/-- rfc5424/builder.go:4646, end of input: line 9186 -/
def r382 : Row Act := ⟨[], [(33, 126, st 383)], st 0, [.setProcid]⟩
/-- rfc5424/builder.go:4655, end of input: line 9186 -/
def r383 : Row Act := ⟨[], [(33, 126, st 384)], st 0, [.setProcid]⟩
/-- rfc5424/builder.go:4664, end of input: line 9186 -/
def r384 : Row Act := ⟨[], [(33, 126, st 385)], st 0, [.setProcid]⟩
/-- rfc5424/builder.go:4673, end of input: line 9186 -/
def r385 : Row Act := ⟨[], [(33, 126, st 386)], st 0, [.setProcid]⟩
/-- rfc5424/builder.go:4682, end of input: line 9186 -/
def r386 : Row Act := ⟨[], [(33, 126, st 387)], st 0, [.setProcid]⟩
/-- rfc5424/builder.go:4691, end of input: line 9186 -/
def r387 : Row Act := ⟨[], [(33, 126, st 388)], st 0, [.setProcid]⟩
/-- rfc5424/builder.go:4700, end of input: line 9186 -/
def r388 : Row Act := ⟨[], [(33, 126, st 389)], st 0, [.setProcid]⟩
/-- rfc5424/builder.go:4709, end of input: line 9186 -/
def r389 : Row Act := ⟨[], [(33, 126, st 390)], st 0, [.setProcid]⟩
/-- rfc5424/builder.go:4718, end of input: line 9186 -/
def r390 : Row Act := ⟨[], [(33, 126, st 391)], st 0, [.setProcid]⟩
/-- rfc5424/builder.go:4727, end of input: line 9186 -/
def r391 : Row Act := ⟨[], [(33, 126, st 392)], st 0, [.setProcid]⟩
/-- rfc5424/builder.go:4736, end of input: line 9186 -/
def r392 : Row Act := ⟨[], [(33, 126, st 393)], st 0, [.setProcid]⟩
/-- rfc5424/builder.go:4745, end of input: line 9186 -/
def r393 : Row Act := ⟨[], [(33, 126, st 394)], st 0, [.setProcid]⟩
/-- rfc5424/builder.go:4754, end of input: line 9186 -/
def r394 : Row Act := ⟨[], [(33, 126, st 395)], st 0, [.setProcid]⟩
/-- rfc5424/builder.go:4763, end of input: line 9186 -/
def r395 : Row Act := ⟨[], [(33, 126, st 396)], st 0, [.setProcid]⟩
/-- rfc5424/builder.go:4772, end of input: line 9186 -/
def r396 : Row Act := ⟨[], [(33, 126, st 397)], st 0, [.setProcid]⟩
/-- rfc5424/builder.go:4781, end of input: line 9186 -/
def r397 : Row Act := ⟨[], [(33, 126, st 398)], st 0, [.setProcid]⟩
/-- rfc5424/builder.go:4790, end of input: line 9186 -/
def r398 : Row Act := ⟨[], [(33, 126, st 399)], st 0, [.setProcid]⟩
/-- rfc5424/builder.go:4799, end of input: line 9186 -/
def r399 : Row Act := ⟨[], [(33, 126, st 400)], st 0, [.setProcid]⟩
/-- rfc5424/builder.go:4808, end of input: line 9186 -/
def r400 : Row Act := ⟨[], [(33, 126, st 401)], st 0, [.setProcid]⟩
/-- rfc5424/builder.go:4817, end of input: line 9186 -/
def r401 : Row Act := ⟨[], [(33, 126, st 402)], st 0, [.setProcid]⟩
/-- rfc5424/builder.go:4826, end of input: line 9186 -/
def r402 : Row Act := ⟨[], [(33, 126, st 403)], st 0, [.setProcid]⟩
/-- rfc5424/builder.go:4835, end of input: line 9186 -/
def r403 : Row Act := ⟨[], [(33, 126, st 404)], st 0, [.setProcid]⟩
/-- rfc5424/builder.go:4844, end of input: line 9186 -/
def r404 : Row Act := ⟨[], [(33, 126, st 405)], st 0, [.setProcid]⟩
/-- rfc5424/builder.go:4853, end of input: line 9186 -/
def r405 : Row Act := ⟨[], [(33, 126, st 406)], st 0, [.setProcid]⟩
/-- rfc5424/builder.go:4862, end of input: line 9186 -/
def r406 : Row Act := ⟨[], [(33, 126, st 407)], st 0, [.setProcid]⟩
/-- rfc5424/builder.go:4871, end of input: line 9186 -/
def r407 : Row Act := ⟨[], [(33, 126, st 408)], st 0, [.setProcid]⟩
/-- rfc5424/builder.go:4880, end of input: line 9186 -/
def r408 : Row Act := ⟨[], [(33, 126, st 409)], st 0, [.setProcid]⟩
/-- rfc5424/builder.go:4889, end of input: line 9186 -/
def r409 : Row Act := ⟨[], [(33, 126, st 410)], st 0, [.setProcid]⟩
/-- rfc5424/builder.go:4898, end of input: line 9186 -/
def r410 : Row Act := ⟨[], [(33, 126, st 411)], st 0, [.setProcid]⟩
/-- rfc5424/builder.go:4907, end of input: line 9186 -/
def r411 : Row Act := ⟨[], [(33, 126, st 412)], st 0, [.setProcid]⟩
/-- rfc5424/builder.go:4916, end of input: line 9186 -/
def r412 : Row Act := ⟨[], [(33, 126, st 413)], st 0, [.setProcid]⟩
/-- rfc5424/builder.go:4925, end of input: line 9186 -/
def r413 : Row Act := ⟨[], [(33, 126, st 414)], st 0, [.setProcid]⟩
/-- rfc5424/builder.go:4934, end of input: line 9186 -/
def r414 : Row Act := ⟨[], [(33, 126, st 415)], st 0, [.setProcid]⟩
/-- rfc5424/builder.go:4943, end of input: line 9186 -/
def r415 : Row Act := ⟨[], [(33, 126, st 416)], st 0, [.setProcid]⟩
/-- rfc5424/builder.go:4952, end of input: line 9186 -/
def r416 : Row Act := ⟨[], [(33, 126, st 417)], st 0, [.setProcid]⟩
/-- rfc5424/builder.go:4961, end of input: line 9186 -/
def r417 : Row Act := ⟨[], [(33, 126, st 418)], st 0, [.setProcid]⟩
/-- rfc5424/builder.go:4970, end of input: line 9186 -/
def r418 : Row Act := ⟨[], [(33, 126, st 419)], st 0, [.setProcid]⟩
/-- rfc5424/builder.go:4979, end of input: line 9186 -/
def r419 : Row Act := ⟨[], [(33, 126, st 420)], st 0, [.setProcid]⟩
/-- rfc5424/builder.go:4988, end of input: line 9186 -/
def r420 : Row Act := ⟨[], [(33, 126, st 421)], st 0, [.setProcid]⟩
/-- rfc5424/builder.go:4997, end of input: line 9186 -/
def r421 : Row Act := ⟨[], [(33, 126, st 422)], st 0, [.setProcid]⟩
/-- rfc5424/builder.go:5006, end of input: line 9186 -/
def r422 : Row Act := ⟨[], [(33, 126, st 423)], st 0, [.setProcid]⟩
/-- rfc5424/builder.go:5015, end of input: line 9186 -/
def r423 : Row Act := ⟨[], [(33, 126, st 424)], st 0, [.setProcid]⟩
/-- rfc5424/builder.go:5024, end of input: line 9186 -/
def r424 : Row Act := ⟨[], [(33, 126, st 425)], st 0, [.setProcid]⟩
/-- rfc5424/builder.go:5033, end of input: line 9186 -/
def r425 : Row Act := ⟨[], [(33, 126, st 426)], st 0, [.setProcid]⟩
/-- rfc5424/builder.go:5042, end of input: line 9186 -/
def r426 : Row Act := ⟨[], [(33, 126, st 427)], st 0, [.setProcid]⟩
/-- rfc5424/builder.go:5051, end of input: line 9186 -/
def r427 : Row Act := ⟨[], [(33, 126, st 428)], st 0, [.setProcid]⟩
/-- rfc5424/builder.go:5060, end of input: line 9186 -/
def r428 : Row Act := ⟨[], [(33, 126, st 429)], st 0, [.setProcid]⟩
/-- rfc5424/builder.go:5069, end of input: line 9186 -/
def r429 : Row Act := ⟨[], [(33, 126, st 430)], st 0, [.setProcid]⟩
/-- rfc5424/builder.go:5078, end of input: line 9186 -/
def r430 : Row Act := ⟨[], [(33, 126, st 431)], st 0, [.setProcid]⟩
/-- rfc5424/builder.go:5087, end of input: line 9186 -/
def r431 : Row Act := ⟨[], [(33, 126, st 432)], st 0, [.setProcid]⟩
/-- rfc5424/builder.go:5096, end of input: line 9186 -/
def r432 : Row Act := ⟨[], [(33, 126, st 433)], st 0, [.setProcid]⟩
/-- rfc5424/builder.go:5105, end of input: line 9186 -/
def r433 : Row Act := ⟨[], [(33, 126, st 434)], st 0, [.setProcid]⟩
/-- rfc5424/builder.go:5114, end of input: line 9186 -/
def r434 : Row Act := ⟨[], [(33, 126, st 435)], st 0, [.setProcid]⟩
/-- rfc5424/builder.go:5123, end of input: line 9186 -/
def r435 : Row Act := ⟨[], [(33, 126, st 436)], st 0, [.setProcid]⟩
/-- rfc5424/builder.go:5132, end of input: line 9186 -/
def r436 : Row Act := ⟨[], [(33, 126, st 437)], st 0, [.setProcid]⟩
/-- rfc5424/builder.go:5141, end of input: line 9186 -/
def r437 : Row Act := ⟨[], [(33, 126, st 438)], st 0, [.setProcid]⟩
/-- rfc5424/builder.go:5150, end of input: line 9186 -/
def r438 : Row Act := ⟨[], [(33, 126, st 439)], st 0, [.setProcid]⟩
/-- rfc5424/builder.go:5159, end of input: line 9186 -/
def r439 : Row Act := ⟨[], [(33, 126, st 440)], st 0, [.setProcid]⟩
/-- rfc5424/builder.go:5168, end of input: line 9186 -/
def r440 : Row Act := ⟨[], [(33, 126, st 441)], st 0, [.setProcid]⟩
/-- rfc5424/builder.go:5177, end of input: line 9186 -/
def r441 : Row Act := ⟨[], [(33, 126, st 442)], st 0, [.setProcid]⟩
/-- rfc5424/builder.go:5186, end of input: line 9186 -/
def r442 : Row Act := ⟨[], [(33, 126, st 443)], st 0, [.setProcid]⟩
/-- rfc5424/builder.go:5195, end of input: line 9186 -/
def r443 : Row Act := ⟨[], [(33, 126, st 444)], st 0, [.setProcid]⟩
/-- rfc5424/builder.go:5204, end of input: line 9186 -/
def r444 : Row Act := ⟨[], [(33, 126, st 445)], st 0, [.setProcid]⟩
/-- rfc5424/builder.go:5213, end of input: line 9186 -/
def r445 : Row Act := ⟨[], [(33, 126, st 446)], st 0, [.setProcid]⟩
/-- rfc5424/builder.go:5222, end of input: line 9186 -/
def r446 : Row Act := ⟨[], [(33, 126, st 447)], st 0, [.setProcid]⟩
/-- rfc5424/builder.go:5231, end of input: line 9186 -/
def r447 : Row Act := ⟨[], [(33, 126, st 448)], st 0, [.setProcid]⟩
/-- rfc5424/builder.go:5240, end of input: line 9186 -/
def r448 : Row Act := ⟨[], [(33, 126, st 449)], st 0, [.setProcid]⟩
/-- rfc5424/builder.go:5249, end of input: line 9186 -/
def r449 : Row Act := ⟨[], [(33, 126, st 450)], st 0, [.setProcid]⟩
/-- rfc5424/builder.go:5258, end of input: line 9186 -/
def r450 : Row Act := ⟨[], [(33, 126, st 451)], st 0, [.setProcid]⟩
/-- rfc5424/builder.go:5267, end of input: line 9186 -/
def r451 : Row Act := ⟨[], [(33, 126, st 452)], st 0, [.setProcid]⟩
/-- rfc5424/builder.go:5276, end of input: line 9186 -/
def r452 : Row Act := ⟨[], [(33, 126, st 453)], st 0, [.setProcid]⟩
/-- rfc5424/builder.go:5285, end of input: line 9186 -/
def r453 : Row Act := ⟨[], [(33, 126, st 454)], st 0, [.setProcid]⟩
/-- rfc5424/builder.go:5294, end of input: line 9186 -/
def r454 : Row Act := ⟨[], [(33, 126, st 455)], st 0, [.setProcid]⟩
/-- rfc5424/builder.go:5303, end of input: line 9186 -/
def r455 : Row Act := ⟨[], [(33, 126, st 456)], st 0, [.setProcid]⟩
/-- rfc5424/builder.go:5312, end of input: line 9186 -/
def r456 : Row Act := ⟨[], [(33, 126, st 457)], st 0, [.setProcid]⟩
/-- rfc5424/builder.go:5321, end of input: line 9186 -/
def r457 : Row Act := ⟨[], [(33, 126, st 458)], st 0, [.setProcid]⟩
/-- rfc5424/builder.go:5330, end of input: line 9186 -/
def r458 : Row Act := ⟨[], [(33, 126, st 459)], st 0, [.setProcid]⟩
/-- rfc5424/builder.go:5339, end of input: line 9186 -/
def r459 : Row Act := ⟨[], [(33, 126, st 460)], st 0, [.setProcid]⟩
/-- rfc5424/builder.go:5348, end of input: line 9186 -/
def r460 : Row Act := ⟨[], [(33, 126, st 461)], st 0, [.setProcid]⟩
/-- rfc5424/builder.go:5357, end of input: line 9186 -/
def r461 : Row Act := ⟨[], [(33, 126, st 462)], st 0, [.setProcid]⟩
/-- rfc5424/builder.go:5366, end of input: line 9186 -/
def r462 : Row Act := ⟨[], [(33, 126, st 463)], st 0, [.setProcid]⟩
/-- rfc5424/builder.go:5375, end of input: line 9186 -/
def r463 : Row Act := ⟨[], [(33, 126, st 464)], st 0, [.setProcid]⟩
/-- rfc5424/builder.go:5384, end of input: line 9186 -/
def r464 : Row Act := ⟨[], [(33, 126, st 465)], st 0, [.setProcid]⟩
/-- rfc5424/builder.go:5393, end of input: line 9186 -/
def r465 : Row Act := ⟨[], [(33, 126, st 466)], st 0, [.setProcid]⟩
/-- rfc5424/builder.go:5402, end of input: line 9186 -/
def r466 : Row Act := ⟨[], [(33, 126, st 467)], st 0, [.setProcid]⟩
/-- rfc5424/builder.go:5411, end of input: line 9186 -/
def r467 : Row Act := ⟨[], [(33, 126, st 468)], st 0, [.setProcid]⟩
/-- rfc5424/builder.go:5420, end of input: line 9186 -/
def r468 : Row Act := ⟨[], [(33, 126, st 469)], st 0, [.setProcid]⟩
/-- rfc5424/builder.go:5429, end of input: line 9186 -/
def r469 : Row Act := ⟨[], [(33, 126, st 470)], st 0, [.setProcid]⟩
/-- rfc5424/builder.go:5438, end of input: line 9186 -/
def r470 : Row Act := ⟨[], [(33, 126, st 471)], st 0, [.setProcid]⟩
/-- rfc5424/builder.go:5447, end of input: line 9186 -/
def r471 : Row Act := ⟨[], [(33, 126, st 472)], st 0, [.setProcid]⟩
/-- rfc5424/builder.go:5456, end of input: line 9186 -/
def r472 : Row Act := ⟨[], [(33, 126, st 473)], st 0, [.setProcid]⟩
/-- rfc5424/builder.go:5465, end of input: line 9186 -/
def r473 : Row Act := ⟨[], [(33, 126, st 474)], st 0, [.setProcid]⟩
/-- rfc5424/builder.go:5474, end of input: line 9186 -/
def r474 : Row Act := ⟨[], [(33, 126, st 475)], st 0, [.setProcid]⟩
/-- rfc5424/builder.go:5483, end of input: line 9186 -/
def r475 : Row Act := ⟨[], [(33, 126, st 476)], st 0, [.setProcid]⟩
/-- rfc5424/builder.go:5492, end of input: line 9186 -/
def r476 : Row Act := ⟨[], [(33, 126, st 477)], st 0, [.setProcid]⟩
/-- rfc5424/builder.go:5501, end of input: line 9186 -/
def r477 : Row Act := ⟨[], [(33, 126, st 478)], st 0, [.setProcid]⟩
/-- rfc5424/builder.go:5510, end of input: line 9186 -/
def r478 : Row Act := ⟨[], [(33, 126, st 479)], st 0, [.setProcid]⟩
/-- rfc5424/builder.go:5519, end of input: line 9186 -/
def r479 : Row Act := ⟨[], [(33, 126, st 480)], st 0, [.setProcid]⟩
/-- rfc5424/builder.go:5528, end of input: line 9186 -/
def r480 : Row Act := ⟨[], [(33, 126, st 481)], st 0, [.setProcid]⟩
/-- rfc5424/builder.go:5537, end of input: line 9186 -/
def r481 : Row Act := ⟨[], [(33, 126, st 482)], st 0, [.setProcid]⟩
/-- rfc5424/builder.go:5546, end of input: line 9186 -/
def r482 : Row Act := ⟨[], [(33, 126, st 483)], st 0, [.setProcid]⟩
/-- rfc5424/builder.go:5555, end of input: line 9186 -/
def r483 : Row Act := ⟨[], [(33, 126, st 484)], st 0, [.setProcid]⟩
/-- rfc5424/builder.go:5564, end of input: line 9186 -/
def r484 : Row Act := ⟨[], [(33, 126, st 485)], st 0, [.setProcid]⟩
/-- rfc5424/builder.go:5573, end of input: line 9186 -/
def r485 : Row Act := ⟨[], [], st 0, [.setProcid]⟩
/-- rfc5424/builder.go:5589, end of input: line 9192 -/
def r486 : Row Act := ⟨[], [(33, 126, st 487)], st 0, [.setMsgid]⟩
/-- rfc5424/builder.go:5598, end of input: line 9192 -/
def r487 : Row Act := ⟨[], [(33, 126, st 488)], st 0, [.setMsgid]⟩
/-- rfc5424/builder.go:5607, end of input: line 9192 -/
def r488 : Row Act := ⟨[], [(33, 126, st 489)], st 0, [.setMsgid]⟩
/-- rfc5424/builder.go:5616, end of input: line 9192 -/
def r489 : Row Act := ⟨[], [(33, 126, st 490)], st 0, [.setMsgid]⟩
/-- rfc5424/builder.go:5625, end of input: line 9192 -/
def r490 : Row Act := ⟨[], [(33, 126, st 491)], st 0, [.setMsgid]⟩
/-- rfc5424/builder.go:5634, end of input: line 9192 -/
def r491 : Row Act := ⟨[], [(33, 126, st 492)], st 0, [.setMsgid]⟩
/-- rfc5424/builder.go:5643, end of input: line 9192 -/
def r492 : Row Act := ⟨[], [(33, 126, st 493)], st 0, [.setMsgid]⟩
/-- rfc5424/builder.go:5652, end of input: line 9192 -/
def r493 : Row Act := ⟨[], [(33, 126, st 494)], st 0, [.setMsgid]⟩
/-- rfc5424/builder.go:5661, end of input: line 9192 -/
def r494 : Row Act := ⟨[], [(33, 126, st 495)], st 0, [.setMsgid]⟩
/-- rfc5424/builder.go:5670, end of input: line 9192 -/
def r495 : Row Act := ⟨[], [(33, 126, st 496)], st 0, [.setMsgid]⟩
/-- rfc5424/builder.go:5679, end of input: line 9192 -/
def r496 : Row Act := ⟨[], [(33, 126, st 497)], st 0, [.setMsgid]⟩
/-- rfc5424/builder.go:5688, end of input: line 9192 -/
def r497 : Row Act := ⟨[], [(33, 126, st 498)], st 0, [.setMsgid]⟩
/-- rfc5424/builder.go:5697, end of input: line 9192 -/
def r498 : Row Act := ⟨[], [(33, 126, st 499)], st 0, [.setMsgid]⟩
/-- rfc5424/builder.go:5706, end of input: line 9192 -/
def r499 : Row Act := ⟨[], [(33, 126, st 500)], st 0, [.setMsgid]⟩
/-- rfc5424/builder.go:5715, end of input: line 9192 -/
def r500 : Row Act := ⟨[], [(33, 126, st 501)], st 0, [.setMsgid]⟩
/-- rfc5424/builder.go:5724, end of input: line 9192 -/
def r501 : Row Act := ⟨[], [(33, 126, st 502)], st 0, [.setMsgid]⟩
/-- rfc5424/builder.go:5733, end of input: line 9192 -/
def r502 : Row Act := ⟨[], [(33, 126, st 503)], st 0, [.setMsgid]⟩
/-- rfc5424/builder.go:5742, end of input: line 9192 -/
def r503 : Row Act := ⟨[], [(33, 126, st 504)], st 0, [.setMsgid]⟩
/-- rfc5424/builder.go:5751, end of input: line 9192 -/
def r504 : Row Act := ⟨[], [(33, 126, st 505)], st 0, [.setMsgid]⟩
/-- rfc5424/builder.go:5760, end of input: line 9192 -/
def r505 : Row Act := ⟨[], [(33, 126, st 506)], st 0, [.setMsgid]⟩
/-- rfc5424/builder.go:5769, end of input: line 9192 -/
def r506 : Row Act := ⟨[], [(33, 126, st 507)], st 0, [.setMsgid]⟩
/-- rfc5424/builder.go:5778, end of input: line 9192 -/
def r507 : Row Act := ⟨[], [(33, 126, st 508)], st 0, [.setMsgid]⟩
/-- rfc5424/builder.go:5787, end of input: line 9192 -/
def r508 : Row Act := ⟨[], [(33, 126, st 509)], st 0, [.setMsgid]⟩
/-- rfc5424/builder.go:5796, end of input: line 9192 -/
def r509 : Row Act := ⟨[], [(33, 126, st 510)], st 0, [.setMsgid]⟩
/-- rfc5424/builder.go:5805, end of input: line 9192 -/
def r510 : Row Act := ⟨[], [(33, 126, st 511)], st 0, [.setMsgid]⟩
/-- rfc5424/builder.go:5814, end of input: line 9192 -/
def r511 : Row Act := ⟨[], [(33, 126, st 512)], st 0, [.setMsgid]⟩
/-- rfc5424/builder.go:5823, end of input: line 9192 -/
def r512 : Row Act := ⟨[], [(33, 126, st 513)], st 0, [.setMsgid]⟩
/-- rfc5424/builder.go:5832, end of input: line 9192 -/
def r513 : Row Act := ⟨[], [(33, 126, st 514)], st 0, [.setMsgid]⟩
/-- rfc5424/builder.go:5841, end of input: line 9192 -/
def r514 : Row Act := ⟨[], [(33, 126, st 515)], st 0, [.setMsgid]⟩
/-- rfc5424/builder.go:5850, end of input: line 9192 -/
def r515 : Row Act := ⟨[], [(33, 126, st 516)], st 0, [.setMsgid]⟩
/-- rfc5424/builder.go:5859, end of input: line 9192 -/
def r516 : Row Act := ⟨[], [(33, 126, st 517)], st 0, [.setMsgid]⟩
/-- rfc5424/builder.go:5868, end of input: line 9192 -/
def r517 : Row Act := ⟨[], [], st 0, [.setMsgid]⟩
/-- rfc5424/builder.go:5896, end of input: line 9198 -/
def r518 : Row Act := ⟨[], [(33, 33, st 519), (35, 60, st 519), (62, 92, st 519), (94, 126, st 519)], st 0, [.setSdid]⟩
/-- rfc5424/builder.go:5917, end of input: line 9198 -/
def r519 : Row Act := ⟨[], [(33, 33, st 520), (35, 60, st 520), (62, 92, st 520), (94, 126, st 520)], st 0, [.setSdid]⟩
/-- rfc5424/builder.go:5938, end of input: line 9198 -/
def r520 : Row Act := ⟨[], [(33, 33, st 521), (35, 60, st 521), (62, 92, st 521), (94, 126, st 521)], st 0, [.setSdid]⟩
/-- rfc5424/builder.go:5959, end of input: line 9198 -/
def r521 : Row Act := ⟨[], [(33, 33, st 522), (35, 60, st 522), (62, 92, st 522), (94, 126, st 522)], st 0, [.setSdid]⟩
/-- rfc5424/builder.go:5980, end of input: line 9198 -/
def r522 : Row Act := ⟨[], [(33, 33, st 523), (35, 60, st 523), (62, 92, st 523), (94, 126, st 523)], st 0, [.setSdid]⟩
/-- rfc5424/builder.go:6001, end of input: line 9198 -/
def r523 : Row Act := ⟨[], [(33, 33, st 524), (35, 60, st 524), (62, 92, st 524), (94, 126, st 524)], st 0, [.setSdid]⟩
/-- rfc5424/builder.go:6022, end of input: line 9198 -/
def r524 : Row Act := ⟨[], [(33, 33, st 525), (35, 60, st 525), (62, 92, st 525), (94, 126, st 525)], st 0, [.setSdid]⟩
/-- rfc5424/builder.go:6043, end of input: line 9198 -/
def r525 : Row Act := ⟨[], [(33, 33, st 526), (35, 60, st 526), (62, 92, st 526), (94, 126, st 526)], st 0, [.setSdid]⟩
/-- rfc5424/builder.go:6064, end of input: line 9198 -/
def r526 : Row Act := ⟨[], [(33, 33, st 527), (35, 60, st 527), (62, 92, st 527), (94, 126, st 527)], st 0, [.setSdid]⟩
/-- rfc5424/builder.go:6085, end of input: line 9198 -/
def r527 : Row Act := ⟨[], [(33, 33, st 528), (35, 60, st 528), (62, 92, st 528), (94, 126, st 528)], st 0, [.setSdid]⟩
/-- rfc5424/builder.go:6106, end of input: line 9198 -/
def r528 : Row Act := ⟨[], [(33, 33, st 529), (35, 60, st 529), (62, 92, st 529), (94, 126, st 529)], st 0, [.setSdid]⟩
/-- rfc5424/builder.go:6127, end of input: line 9198 -/
def r529 : Row Act := ⟨[], [(33, 33, st 530), (35, 60, st 530), (62, 92, st 530), (94, 126, st 530)], st 0, [.setSdid]⟩
/-- rfc5424/builder.go:6148, end of input: line 9198 -/
def r530 : Row Act := ⟨[], [(33, 33, st 531), (35, 60, st 531), (62, 92, st 531), (94, 126, st 531)], st 0, [.setSdid]⟩
/-- rfc5424/builder.go:6169, end of input: line 9198 -/
def r531 : Row Act := ⟨[], [(33, 33, st 532), (35, 60, st 532), (62, 92, st 532), (94, 126, st 532)], st 0, [.setSdid]⟩
/-- rfc5424/builder.go:6190, end of input: line 9198 -/
def r532 : Row Act := ⟨[], [(33, 33, st 533), (35, 60, st 533), (62, 92, st 533), (94, 126, st 533)], st 0, [.setSdid]⟩
/-- rfc5424/builder.go:6211, end of input: line 9198 -/
def r533 : Row Act := ⟨[], [(33, 33, st 534), (35, 60, st 534), (62, 92, st 534), (94, 126, st 534)], st 0, [.setSdid]⟩
/-- rfc5424/builder.go:6232, end of input: line 9198 -/
def r534 : Row Act := ⟨[], [(33, 33, st 535), (35, 60, st 535), (62, 92, st 535), (94, 126, st 535)], st 0, [.setSdid]⟩
/-- rfc5424/builder.go:6253, end of input: line 9198 -/
def r535 : Row Act := ⟨[], [(33, 33, st 536), (35, 60, st 536), (62, 92, st 536), (94, 126, st 536)], st 0, [.setSdid]⟩
/-- rfc5424/builder.go:6274, end of input: line 9198 -/
def r536 : Row Act := ⟨[], [(33, 33, st 537), (35, 60, st 537), (62, 92, st 537), (94, 126, st 537)], st 0, [.setSdid]⟩
/-- rfc5424/builder.go:6295, end of input: line 9198 -/
def r537 : Row Act := ⟨[], [(33, 33, st 538), (35, 60, st 538), (62, 92, st 538), (94, 126, st 538)], st 0, [.setSdid]⟩
/-- rfc5424/builder.go:6316, end of input: line 9198 -/
def r538 : Row Act := ⟨[], [(33, 33, st 539), (35, 60, st 539), (62, 92, st 539), (94, 126, st 539)], st 0, [.setSdid]⟩
/-- rfc5424/builder.go:6337, end of input: line 9198 -/
def r539 : Row Act := ⟨[], [(33, 33, st 540), (35, 60, st 540), (62, 92, st 540), (94, 126, st 540)], st 0, [.setSdid]⟩
/-- rfc5424/builder.go:6358, end of input: line 9198 -/
def r540 : Row Act := ⟨[], [(33, 33, st 541), (35, 60, st 541), (62, 92, st 541), (94, 126, st 541)], st 0, [.setSdid]⟩
/-- rfc5424/builder.go:6379, end of input: line 9198 -/
def r541 : Row Act := ⟨[], [(33, 33, st 542), (35, 60, st 542), (62, 92, st 542), (94, 126, st 542)], st 0, [.setSdid]⟩
/-- rfc5424/builder.go:6400, end of input: line 9198 -/
def r542 : Row Act := ⟨[], [(33, 33, st 543), (35, 60, st 543), (62, 92, st 543), (94, 126, st 543)], st 0, [.setSdid]⟩
/-- rfc5424/builder.go:6421, end of input: line 9198 -/
def r543 : Row Act := ⟨[], [(33, 33, st 544), (35, 60, st 544), (62, 92, st 544), (94, 126, st 544)], st 0, [.setSdid]⟩
/-- rfc5424/builder.go:6442, end of input: line 9198 -/
def r544 : Row Act := ⟨[], [(33, 33, st 545), (35, 60, st 545), (62, 92, st 545), (94, 126, st 545)], st 0, [.setSdid]⟩
/-- rfc5424/builder.go:6463, end of input: line 9198 -/
def r545 : Row Act := ⟨[], [(33, 33, st 546), (35, 60, st 546), (62, 92, st 546), (94, 126, st 546)], st 0, [.setSdid]⟩
/-- rfc5424/builder.go:6484, end of input: line 9198 -/
def r546 : Row Act := ⟨[], [(33, 33, st 547), (35, 60, st 547), (62, 92, st 547), (94, 126, st 547)], st 0, [.setSdid]⟩
/-- rfc5424/builder.go:6505, end of input: line 9198 -/
def r547 : Row Act := ⟨[], [(33, 33, st 548), (35, 60, st 548), (62, 92, st 548), (94, 126, st 548)], st 0, [.setSdid]⟩
/-- rfc5424/builder.go:6526, end of input: line 9198 -/
def r548 : Row Act := ⟨[], [(33, 33, st 549), (35, 60, st 549), (62, 92, st 549), (94, 126, st 549)], st 0, [.setSdid]⟩
/-- rfc5424/builder.go:6547, end of input: line 9198 -/
def r549 : Row Act := ⟨[], [], st 0, [.setSdid]⟩
/-- rfc5424/builder.go:6575, end of input: line 9210 -/
def r550 : Row Act := ⟨[], [(33, 33, st 551), (35, 60, st 551), (62, 92, st 551), (94, 126, st 551)], st 0, [.setSdpn]⟩
/-- rfc5424/builder.go:6596, end of input: line 9210 -/
def r551 : Row Act := ⟨[], [(33, 33, st 552), (35, 60, st 552), (62, 92, st 552), (94, 126, st 552)], st 0, [.setSdpn]⟩
/-- rfc5424/builder.go:6617, end of input: line 9210 -/
def r552 : Row Act := ⟨[], [(33, 33, st 553), (35, 60, st 553), (62, 92, st 553), (94, 126, st 553)], st 0, [.setSdpn]⟩
/-- rfc5424/builder.go:6638, end of input: line 9210 -/
def r553 : Row Act := ⟨[], [(33, 33, st 554), (35, 60, st 554), (62, 92, st 554), (94, 126, st 554)], st 0, [.setSdpn]⟩
/-- rfc5424/builder.go:6659, end of input: line 9210 -/
def r554 : Row Act := ⟨[], [(33, 33, st 555), (35, 60, st 555), (62, 92, st 555), (94, 126, st 555)], st 0, [.setSdpn]⟩
/-- rfc5424/builder.go:6680, end of input: line 9210 -/
def r555 : Row Act := ⟨[], [(33, 33, st 556), (35, 60, st 556), (62, 92, st 556), (94, 126, st 556)], st 0, [.setSdpn]⟩
/-- rfc5424/builder.go:6701, end of input: line 9210 -/
def r556 : Row Act := ⟨[], [(33, 33, st 557), (35, 60, st 557), (62, 92, st 557), (94, 126, st 557)], st 0, [.setSdpn]⟩
/-- rfc5424/builder.go:6722, end of input: line 9210 -/
def r557 : Row Act := ⟨[], [(33, 33, st 558), (35, 60, st 558), (62, 92, st 558), (94, 126, st 558)], st 0, [.setSdpn]⟩
/-- rfc5424/builder.go:6743, end of input: line 9210 -/
def r558 : Row Act := ⟨[], [(33, 33, st 559), (35, 60, st 559), (62, 92, st 559), (94, 126, st 559)], st 0, [.setSdpn]⟩
/-- rfc5424/builder.go:6764, end of input: line 9210 -/
def r559 : Row Act := ⟨[], [(33, 33, st 560), (35, 60, st 560), (62, 92, st 560), (94, 126, st 560)], st 0, [.setSdpn]⟩
/-- rfc5424/builder.go:6785, end of input: line 9210 -/
def r560 : Row Act := ⟨[], [(33, 33, st 561), (35, 60, st 561), (62, 92, st 561), (94, 126, st 561)], st 0, [.setSdpn]⟩
/-- rfc5424/builder.go:6806, end of input: line 9210 -/
def r561 : Row Act := ⟨[], [(33, 33, st 562), (35, 60, st 562), (62, 92, st 562), (94, 126, st 562)], st 0, [.setSdpn]⟩
/-- rfc5424/builder.go:6827, end of input: line 9210 -/
def r562 : Row Act := ⟨[], [(33, 33, st 563), (35, 60, st 563), (62, 92, st 563), (94, 126, st 563)], st 0, [.setSdpn]⟩
/-- rfc5424/builder.go:6848, end of input: line 9210 -/
def r563 : Row Act := ⟨[], [(33, 33, st 564), (35, 60, st 564), (62, 92, st 564), (94, 126, st 564)], st 0, [.setSdpn]⟩
/-- rfc5424/builder.go:6869, end of input: line 9210 -/
def r564 : Row Act := ⟨[], [(33, 33, st 565), (35, 60, st 565), (62, 92, st 565), (94, 126, st 565)], st 0, [.setSdpn]⟩
/-- rfc5424/builder.go:6890, end of input: line 9210 -/
def r565 : Row Act := ⟨[], [(33, 33, st 566), (35, 60, st 566), (62, 92, st 566), (94, 126, st 566)], st 0, [.setSdpn]⟩
/-- rfc5424/builder.go:6911, end of input: line 9210 -/
def r566 : Row Act := ⟨[], [(33, 33, st 567), (35, 60, st 567), (62, 92, st 567), (94, 126, st 567)], st 0, [.setSdpn]⟩
/-- rfc5424/builder.go:6932, end of input: line 9210 -/
def r567 : Row Act := ⟨[], [(33, 33, st 568), (35, 60, st 568), (62, 92, st 568), (94, 126, st 568)], st 0, [.setSdpn]⟩
/-- rfc5424/builder.go:6953, end of input: line 9210 -/
def r568 : Row Act := ⟨[], [(33, 33, st 569), (35, 60, st 569), (62, 92, st 569), (94, 126, st 569)], st 0, [.setSdpn]⟩
/-- rfc5424/builder.go:6974, end of input: line 9210 -/
def r569 : Row Act := ⟨[], [(33, 33, st 570), (35, 60, st 570), (62, 92, st 570), (94, 126, st 570)], st 0, [.setSdpn]⟩
/-- rfc5424/builder.go:6995, end of input: line 9210 -/
def r570 : Row Act := ⟨[], [(33, 33, st 571), (35, 60, st 571), (62, 92, st 571), (94, 126, st 571)], st 0, [.setSdpn]⟩
/-- rfc5424/builder.go:7016, end of input: line 9210 -/
def r571 : Row Act := ⟨[], [(33, 33, st 572), (35, 60, st 572), (62, 92, st 572), (94, 126, st 572)], st 0, [.setSdpn]⟩
/-- rfc5424/builder.go:7037, end of input: line 9210 -/
def r572 : Row Act := ⟨[], [(33, 33, st 573), (35, 60, st 573), (62, 92, st 573), (94, 126, st 573)], st 0, [.setSdpn]⟩
/-- rfc5424/builder.go:7058, end of input: line 9210 -/
def r573 : Row Act := ⟨[], [(33, 33, st 574), (35, 60, st 574), (62, 92, st 574), (94, 126, st 574)], st 0, [.setSdpn]⟩
/-- rfc5424/builder.go:7079, end of input: line 9210 -/
def r574 : Row Act := ⟨[], [(33, 33, st 575), (35, 60, st 575), (62, 92, st 575), (94, 126, st 575)], st 0, [.setSdpn]⟩
/-- rfc5424/builder.go:7100, end of input: line 9210 -/
def r575 : Row Act := ⟨[], [(33, 33, st 576), (35, 60, st 576), (62, 92, st 576), (94, 126, st 576)], st 0, [.setSdpn]⟩
/-- rfc5424/builder.go:7121, end of input: line 9210 -/
def r576 : Row Act := ⟨[], [(33, 33, st 577), (35, 60, st 577), (62, 92, st 577), (94, 126, st 577)], st 0, [.setSdpn]⟩
/-- rfc5424/builder.go:7142, end of input: line 9210 -/
def r577 : Row Act := ⟨[], [(33, 33, st 578), (35, 60, st 578), (62, 92, st 578), (94, 126, st 578)], st 0, [.setSdpn]⟩
/-- rfc5424/builder.go:7163, end of input: line 9210 -/
def r578 : Row Act := ⟨[], [(33, 33, st 579), (35, 60, st 579), (62, 92, st 579), (94, 126, st 579)], st 0, [.setSdpn]⟩
/-- rfc5424/builder.go:7184, end of input: line 9210 -/
def r579 : Row Act := ⟨[], [(33, 33, st 580), (35, 60, st 580), (62, 92, st 580), (94, 126, st 580)], st 0, [.setSdpn]⟩
/-- rfc5424/builder.go:7205, end of input: line 9210 -/
def r580 : Row Act := ⟨[], [(33, 33, st 581), (35, 60, st 581), (62, 92, st 581), (94, 126, st 581)], st 0, [.setSdpn]⟩
/-- rfc5424/builder.go:7226, end of input: line 9210 -/
def r581 : Row Act := ⟨[], [], st 0, [.setSdpn]⟩
/-- rfc5424/builder.go:7228, end of input: line 9234 -/
def r582 : Row Act := ⟨[], [(34, 34, st 0), (92, 92, tr571), (93, 93, st 0), (128, 193, st 0), (194, 223, tr572), (224, 224, tr573), (225, 236, tr574), (237, 237, tr575), (238, 239, tr574), (240, 240, tr576), (241, 243, tr577), (244, 244, tr578), (245, 255, st 0)], tr570, [.mark, .setSdpv]⟩
/-- rfc5424/builder.go:7277, end of input: line 9216 -/
def r583 : Row Act := ⟨[], [(34, 34, st 0), (92, 92, tr579), (93, 93, st 0), (128, 193, st 0), (194, 223, st 45), (224, 224, st 46), (225, 236, st 47), (237, 237, st 48), (238, 239, st 47), (240, 240, st 49), (241, 243, st 50), (244, 244, st 51), (245, 255, st 0)], st 583, [.setSdpv]⟩

/-- The FSM, row `N` = `stCaseN`. -/
def table : List (Row Act) := [
  r0, r1, r2, r3, r4, r5, r6, r7, r8, r9, r10, r11,
  r12, r13, r14, r15, r16, r17, r18, r19, r20, r21, r22, r23,
  r24, r25, r26, r27, r28, r29, r30, r31, r32, r33, r34, r35,
  r36, r37, r38, r39, r40, r41, r42, r43, r44, r45, r46, r47,
  r48, r49, r50, r51, r52, r53, r54, r55, r56, r57, r58, r59,
  r60, r61, r62, r63, r64, r65, r66, r67, r68, r69, r70, r71,
  r72, r73, r74, r75, r76, r77, r78, r79, r80, r81, r82, r83,
  r84, r85, r86, r87, r88, r89, r90, r91, r92, r93, r94, r95,
  r96, r97, r98, r99, r100, r101, r102, r103, r104, r105, r106, r107,
  r108, r109, r110, r111, r112, r113, r114, r115, r116, r117, r118, r119,
  r120, r121, r122, r123, r124, r125, r126, r127, r128, r129, r130, r131,
  r132, r133, r134, r135, r136, r137, r138, r139, r140, r141, r142, r143,
  r144, r145, r146, r147, r148, r149, r150, r151, r152, r153, r154, r155,
  r156, r157, r158, r159, r160, r161, r162, r163, r164, r165, r166, r167,
  r168, r169, r170, r171, r172, r173, r174, r175, r176, r177, r178, r179,
  r180, r181, r182, r183, r184, r185, r186, r187, r188, r189, r190, r191,
  r192, r193, r194, r195, r196, r197, r198, r199, r200, r201, r202, r203,
  r204, r205, r206, r207, r208, r209, r210, r211, r212, r213, r214, r215,
  r216, r217, r218, r219, r220, r221, r222, r223, r224, r225, r226, r227,
  r228, r229, r230, r231, r232, r233, r234, r235, r236, r237, r238, r239,
  r240, r241, r242, r243, r244, r245, r246, r247, r248, r249, r250, r251,
  r252, r253, r254, r255, r256, r257, r258, r259, r260, r261, r262, r263,
  r264, r265, r266, r267, r268, r269, r270, r271, r272, r273, r274, r275,
  r276, r277, r278, r279, r280, r281, r282, r283, r284, r285, r286, r287,
  r288, r289, r290, r291, r292, r293, r294, r295, r296, r297, r298, r299,
  r300, r301, r302, r303, r304, r305, r306, r307, r308, r309, r310, r311,
  r312, r313, r314, r315, r316, r317, r318, r319, r320, r321, r322, r323,
  r324, r325, r326, r327, r328, r329, r330, r331, r332, r333, r334, r335,
  r336, r337, r338, r339, r340, r341, r342, r343, r344, r345, r346, r347,
  r348, r349, r350, r351, r352, r353, r354, r355, r356, r357, r358, r359,
  r360, r361, r362, r363, r364, r365, r366, r367, r368, r369, r370, r371,
  r372, r373, r374, r375, r376, r377, r378, r379, r380, r381, r382, r383,
  r384, r385, r386, r387, r388, r389, r390, r391, r392, r393, r394, r395,
  r396, r397, r398, r399, r400, r401, r402, r403, r404, r405, r406, r407,
  r408, r409, r410, r411, r412, r413, r414, r415, r416, r417, r418, r419,
  r420, r421, r422, r423, r424, r425, r426, r427, r428, r429, r430, r431,
  r432, r433, r434, r435, r436, r437, r438, r439, r440, r441, r442, r443,
  r444, r445, r446, r447, r448, r449, r450, r451, r452, r453, r454, r455,
  r456, r457, r458, r459, r460, r461, r462, r463, r464, r465, r466, r467,
  r468, r469, r470, r471, r472, r473, r474, r475, r476, r477, r478, r479,
  r480, r481, r482, r483, r484, r485, r486, r487, r488, r489, r490, r491,
  r492, r493, r494, r495, r496, r497, r498, r499, r500, r501, r502, r503,
  r504, r505, r506, r507, r508, r509, r510, r511, r512, r513, r514, r515,
  r516, r517, r518, r519, r520, r521, r522, r523, r524, r525, r526, r527,
  r528, r529, r530, r531, r532, r533, r534, r535, r536, r537, r538, r539,
  r540, r541, r542, r543, r544, r545, r546, r547, r548, r549, r550, r551,
  r552, r553, r554, r555, r556, r557, r558, r559, r560, r561, r562, r563,
  r564, r565, r566, r567, r568, r569, r570, r571, r572, r573, r574, r575,
  r576, r577, r578, r579, r580, r581, r582, r583]

end Verif.Gen.Builder
