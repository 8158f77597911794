import Verif.Fsm

/-!
# Rfc5424: transition table of the Ragel-generated FSM in `rfc5424/machine.go`

GENERATED by `tools/gen.py` from the Go source; do not edit by hand.
start = 1, firstFinal = 603, enMsgAny = 607, enMsgCompliant = 609, enFail = 614 (machine.go:53-59).
* `Act`: one constructor per distinct action snippet of the Go code (the snippet is quoted).
* `trN`: the Go label `trN:` (its actions in order, and the state it goes to).
* `rN`: the Go label `stCaseN:` (from-state actions, byte ranges, the `goto` taken by all
  remaining bytes, and the actions of `case N:` in the end-of-input switch).
-/

namespace Verif.Gen.Rfc5424
open Verif.Fsm

/-- Actions embedded in `rfc5424/machine.go`. -/
inductive Act where
  /-- `m.pb = m.p` -/
  | mark
  /-- `m.msgat = m.p` -/
  | markmsg
  /-- `(m.p)-- if m.compliantMsg { { goto st609 } } { goto st607 }` -/
  | selectMsgMode
  /-- `output.priority = uint8(common.UnsafeUTF8DecimalCodePointsToInt(m.text())) output.prioritySet = true` -/
  | setPrival
  /-- `output.version = uint16(common.UnsafeUTF8DecimalCodePointsToInt(m.text()))` -/
  | setVersion
  /-- `if t, e := time.Parse(RFC3339MICRO, string(m.text())); e != nil { m.err = fmt.Errorf("%s [col %d]", e, m.p) (m.p)-- { goto st614 } } else { output.timestamp = t output.timestampSet = true }` -/
  | setTimestamp
  /-- `output.hostname = string(m.text())` -/
  | setHostname
  /-- `output.appname = string(m.text())` -/
  | setAppname
  /-- `output.procID = string(m.text())` -/
  | setProcid
  /-- `output.msgID = string(m.text())` -/
  | setMsgid
  /-- `output.structuredData = map[string]map[string]string{}` -/
  | iniElements
  /-- `if _, ok := output.structuredData[string(m.text())]; ok { // As per RFC5424 section 6.3.2 SD-ID MUST NOT exist more than once in a message m.err = fmt.Errorf(ErrSdIDDuplicated+ColumnPositionTemplate, m.p) (m.p)-- { goto st614 } } else { id := string(m.text()) output.structuredData[id] = map[string]string{} output.hasElements = true m.currentelem = id }` -/
  | setId
  /-- `m.backslashat = []int{}` -/
  | iniSdparam
  /-- `m.backslashat = append(m.backslashat, m.p)` -/
  | addSlash
  /-- `m.currentparam = string(m.text())` -/
  | setParamname
  /-- `if output.hasElements { // (fixme) > what if SD-PARAM-NAME already exist for the current element (ie., current SD-ID)? // Store text text := m.text() // Strip backslashes only when there are ... if len(m.backslashat) > 0 { text = common.RemoveBytes(text, m.backslashat, m.pb) } output.structuredData[m.currentelem][m.currentparam] = string(text) }` -/
  | setParamvalue
  /-- `output.message = string(m.text())` -/
  | setMsg
  /-- `m.err = fmt.Errorf(ErrPrival+ColumnPositionTemplate, m.p) (m.p)-- { goto st614 }` -/
  | errPrival
  /-- `m.err = fmt.Errorf(ErrPri+ColumnPositionTemplate, m.p) (m.p)-- { goto st614 }` -/
  | errPri
  /-- `m.err = fmt.Errorf(ErrVersion+ColumnPositionTemplate, m.p) (m.p)-- { goto st614 }` -/
  | errVersion
  /-- `m.err = fmt.Errorf(ErrTimestamp+ColumnPositionTemplate, m.p) (m.p)-- { goto st614 }` -/
  | errTimestamp
  /-- `m.err = fmt.Errorf(ErrHostname+ColumnPositionTemplate, m.p) (m.p)-- { goto st614 }` -/
  | errHostname
  /-- `m.err = fmt.Errorf(ErrAppname+ColumnPositionTemplate, m.p) (m.p)-- { goto st614 }` -/
  | errAppname
  /-- `m.err = fmt.Errorf(ErrProcID+ColumnPositionTemplate, m.p) (m.p)-- { goto st614 }` -/
  | errProcid
  /-- `m.err = fmt.Errorf(ErrMsgID+ColumnPositionTemplate, m.p) (m.p)-- { goto st614 }` -/
  | errMsgid
  /-- `m.err = fmt.Errorf(ErrStructuredData+ColumnPositionTemplate, m.p) (m.p)-- { goto st614 }` -/
  | errStructureddata
  /-- `delete(output.structuredData, m.currentelem) if len(output.structuredData) == 0 { output.hasElements = false } m.err = fmt.Errorf(ErrSdID+ColumnPositionTemplate, m.p) (m.p)-- { goto st614 }` -/
  | errSdid
  /-- `if len(output.structuredData) > 0 { delete(output.structuredData[m.currentelem], m.currentparam) } m.err = fmt.Errorf(ErrSdParam+ColumnPositionTemplate, m.p) (m.p)-- { goto st614 }` -/
  | errSdparam
  /-- `// If error encountered within the message rule ... if m.msgat > 0 { // Save the text until valid (m.p is where the parser has stopped) output.message = string(m.data[m.msgat:m.p]) } if m.compliantMsg { m.err = fmt.Errorf(ErrMsgNotCompliant+ColumnPositionTemplate, m.p) } else { m.err = fmt.Errorf(ErrMsg+ColumnPositionTemplate, m.p) } (m.p)-- { goto st614 }` -/
  | errMsg
  /-- `m.err = fmt.Errorf(ErrEscape+ColumnPositionTemplate, m.p) (m.p)-- { goto st614 }` -/
  | errEscape
  /-- `m.err = fmt.Errorf(ErrParse+ColumnPositionTemplate, m.p) (m.p)-- { goto st614 }` -/
  | errParse
  deriving DecidableEq, Repr

/-- label `stN:` — `if p++; p == pe { goto _testEofN }` then `stCaseN`: no action, go to N. -/
@[reducible] def st (n : Nat) : Label Act := ⟨[], n⟩

/-- rfc5424/machine.go:1370 -/
def tr0 : Label Act := ⟨[.errPri], 0⟩
/-- rfc5424/machine.go:1380 -/
def tr2 : Label Act := ⟨[.errPrival, .errPri, .errParse], 0⟩
/-- rfc5424/machine.go:1719 -/
def tr3 : Label Act := ⟨[.mark], 3⟩
/-- rfc5424/machine.go:9606 -/
def tr4 : Label Act := ⟨[.mark], 593⟩
/-- rfc5424/machine.go:9630 -/
def tr5 : Label Act := ⟨[.mark], 594⟩
/-- rfc5424/machine.go:1404 -/
def tr7 : Label Act := ⟨[.errVersion, .errParse], 0⟩
/-- rfc5424/machine.go:1746 -/
def tr8 : Label Act := ⟨[.mark], 5⟩
/-- rfc5424/machine.go:1421 -/
def tr9 : Label Act := ⟨[.errParse], 0⟩
/-- rfc5424/machine.go:1431 -/
def tr12 : Label Act := ⟨[.errTimestamp, .errParse], 0⟩
/-- rfc5424/machine.go:9174 -/
def tr14 : Label Act := ⟨[.mark], 554⟩
/-- rfc5424/machine.go:1448 -/
def tr16 : Label Act := ⟨[.errHostname, .errParse], 0⟩
/-- rfc5424/machine.go:1811 -/
def tr17 : Label Act := ⟨[.mark], 9⟩
/-- rfc5424/machine.go:1828 -/
def tr18 : Label Act := ⟨[.setHostname], 10⟩
/-- rfc5424/machine.go:1465 -/
def tr20 : Label Act := ⟨[.errAppname, .errParse], 0⟩
/-- rfc5424/machine.go:1842 -/
def tr21 : Label Act := ⟨[.mark], 11⟩
/-- rfc5424/machine.go:1859 -/
def tr22 : Label Act := ⟨[.setAppname], 12⟩
/-- rfc5424/machine.go:1482 -/
def tr24 : Label Act := ⟨[.errProcid, .errParse], 0⟩
/-- rfc5424/machine.go:1873 -/
def tr25 : Label Act := ⟨[.mark], 13⟩
/-- rfc5424/machine.go:1890 -/
def tr26 : Label Act := ⟨[.setProcid], 14⟩
/-- rfc5424/machine.go:1499 -/
def tr28 : Label Act := ⟨[.errMsgid, .errParse], 0⟩
/-- rfc5424/machine.go:1904 -/
def tr29 : Label Act := ⟨[.mark], 15⟩
/-- rfc5424/machine.go:1516 -/
def tr30 : Label Act := ⟨[.errMsgid], 0⟩
/-- rfc5424/machine.go:1921 -/
def tr31 : Label Act := ⟨[.setMsgid], 16⟩
/-- rfc5424/machine.go:1526 -/
def tr33 : Label Act := ⟨[.errStructureddata], 0⟩
/-- rfc5424/machine.go:1973 -/
def tr35 : Label Act := ⟨[.iniElements], 17⟩
/-- rfc5424/machine.go:1536 -/
def tr36 : Label Act := ⟨[.errSdid, .errStructureddata], 0⟩
/-- rfc5424/machine.go:1999 -/
def tr37 : Label Act := ⟨[.mark], 18⟩
/-- rfc5424/machine.go:1557 -/
def tr38 : Label Act := ⟨[.setId, .errSdid, .errStructureddata], 0⟩
/-- rfc5424/machine.go:2026 -/
def tr39 : Label Act := ⟨[.setId], 19⟩
/-- rfc5424/machine.go:2854 -/
def tr41 : Label Act := ⟨[.setId], 606⟩
/-- rfc5424/machine.go:1593 -/
def tr42 : Label Act := ⟨[.errSdparam, .errStructureddata], 0⟩
/-- rfc5424/machine.go:2065 -/
def tr43 : Label Act := ⟨[.iniSdparam, .mark], 20⟩
/-- rfc5424/machine.go:2701 -/
def tr45 : Label Act := ⟨[.setParamname], 52⟩
/-- rfc5424/machine.go:2759 -/
def tr77 : Label Act := ⟨[.mark], 54⟩
/-- rfc5424/machine.go:2808 -/
def tr78 : Label Act := ⟨[.mark, .setParamvalue], 55⟩
/-- rfc5424/machine.go:2884 -/
def tr79 : Label Act := ⟨[.mark, .addSlash], 56⟩
/-- rfc5424/machine.go:1613 -/
def tr80 : Label Act := ⟨[.errEscape, .errSdparam, .errStructureddata], 0⟩
/-- rfc5424/machine.go:2908 -/
def tr81 : Label Act := ⟨[.mark], 57⟩
/-- rfc5424/machine.go:2922 -/
def tr82 : Label Act := ⟨[.mark], 58⟩
/-- rfc5424/machine.go:2936 -/
def tr83 : Label Act := ⟨[.mark], 59⟩
/-- rfc5424/machine.go:2950 -/
def tr84 : Label Act := ⟨[.mark], 60⟩
/-- rfc5424/machine.go:2964 -/
def tr85 : Label Act := ⟨[.mark], 61⟩
/-- rfc5424/machine.go:2978 -/
def tr86 : Label Act := ⟨[.mark], 62⟩
/-- rfc5424/machine.go:2992 -/
def tr87 : Label Act := ⟨[.mark], 63⟩
/-- rfc5424/machine.go:2826 -/
def tr89 : Label Act := ⟨[.setParamvalue], 55⟩
/-- rfc5424/machine.go:2891 -/
def tr90 : Label Act := ⟨[.addSlash], 56⟩
/-- rfc5424/machine.go:1640 -/
def tr615 : Label Act := ⟨[.setTimestamp, .errParse], 0⟩
/-- rfc5424/machine.go:1787 -/
def tr616 : Label Act := ⟨[.setTimestamp], 8⟩
/-- rfc5424/machine.go:1662 -/
def tr627 : Label Act := ⟨[.errMsg], 0⟩
/-- rfc5424/machine.go:1953 -/
def tr632 : Label Act := ⟨[.selectMsgMode], 605⟩
/-- rfc5424/machine.go:1683 -/
def tr633 : Label Act := ⟨[.errStructureddata, .errParse], 0⟩
/-- rfc5424/machine.go:9673 -/
def tr635 : Label Act := ⟨[.mark, .markmsg], 608⟩
/-- rfc5424/machine.go:9695 -/
def tr637 : Label Act := ⟨[.mark, .markmsg], 610⟩
/-- rfc5424/machine.go:9708 -/
def tr638 : Label Act := ⟨[.mark, .markmsg], 611⟩

/-- `st0:` — `cs = 0; goto _out` (never dispatched: the interpreter stops in state 0). -/
def r0 : Row Act := ⟨[], [], st 0, []⟩
/-- rfc5424/machine.go:1365, end of input: line 11696 -/
def r1 : Row Act := ⟨[], [(60, 60, st 2)], tr0, [.errPri]⟩
/-- rfc5424/machine.go:1708, end of input: line 11962 -/
def r2 : Row Act := ⟨[], [(48, 48, tr3), (49, 49, tr4), (50, 57, tr5)], tr2, [.errPrival, .errPri, .errParse]⟩
/-- rfc5424/machine.go:1728, end of input: line 11962 -/
def r3 : Row Act := ⟨[.setPrival], [(62, 62, st 4)], tr2, [.errPrival, .errPri, .errParse]⟩
/-- rfc5424/machine.go:1741, end of input: line 11784 -/
def r4 : Row Act := ⟨[], [(49, 57, tr8)], tr7, [.errVersion, .errParse]⟩
/-- rfc5424/machine.go:1755, end of input: line 11752 -/
def r5 : Row Act := ⟨[.setVersion], [(32, 32, st 6), (48, 57, st 591)], tr9, [.setVersion, .errParse]⟩
/-- rfc5424/machine.go:1770, end of input: line 11800 -/
def r6 : Row Act := ⟨[], [(45, 45, st 7), (48, 57, tr14)], tr12, [.errTimestamp, .errParse]⟩
/-- rfc5424/machine.go:1782, end of input: line 11743 -/
def r7 : Row Act := ⟨[], [(32, 32, st 8)], tr9, [.errParse]⟩
/-- rfc5424/machine.go:1806, end of input: line 11816 -/
def r8 : Row Act := ⟨[], [(33, 126, tr17)], tr16, [.errHostname, .errParse]⟩
/-- rfc5424/machine.go:1820, end of input: line 11816 -/
def r9 : Row Act := ⟨[], [(32, 32, tr18), (33, 126, st 300)], tr16, [.errHostname, .errParse]⟩
/-- rfc5424/machine.go:1837, end of input: line 11832 -/
def r10 : Row Act := ⟨[], [(33, 126, tr21)], tr20, [.errAppname, .errParse]⟩
/-- rfc5424/machine.go:1851, end of input: line 11832 -/
def r11 : Row Act := ⟨[], [(32, 32, tr22), (33, 126, st 253)], tr20, [.errAppname, .errParse]⟩
/-- rfc5424/machine.go:1868, end of input: line 11848 -/
def r12 : Row Act := ⟨[], [(33, 126, tr25)], tr24, [.errProcid, .errParse]⟩
/-- rfc5424/machine.go:1882, end of input: line 11848 -/
def r13 : Row Act := ⟨[], [(32, 32, tr26), (33, 126, st 126)], tr24, [.errProcid, .errParse]⟩
/-- rfc5424/machine.go:1899, end of input: line 11864 -/
def r14 : Row Act := ⟨[], [(33, 126, tr29)], tr28, [.errMsgid, .errParse]⟩
/-- rfc5424/machine.go:1913, end of input: line 11705 -/
def r15 : Row Act := ⟨[], [(32, 32, tr31), (33, 126, st 95)], tr30, [.errMsgid]⟩
/-- rfc5424/machine.go:1930, end of input: line 11714 -/
def r16 : Row Act := ⟨[], [(45, 45, st 603), (91, 91, tr35)], tr33, [.errStructureddata]⟩
/-- rfc5424/machine.go:1982, end of input: line 11880 -/
def r17 : Row Act := ⟨[], [(33, 33, tr37), (35, 60, tr37), (62, 92, tr37), (94, 126, tr37)], tr36, [.errSdid, .errStructureddata]⟩
/-- rfc5424/machine.go:2008, end of input: line 11927 -/
def r18 : Row Act := ⟨[], [(32, 32, tr39), (33, 33, st 64), (35, 60, st 64), (62, 92, st 64), (93, 93, tr41), (94, 126, st 64)], tr38, [.setId, .errSdid, .errStructureddata]⟩
/-- rfc5424/machine.go:2048, end of input: line 11900 -/
def r19 : Row Act := ⟨[], [(33, 33, tr43), (35, 60, tr43), (62, 92, tr43), (94, 126, tr43)], tr42, [.errSdparam, .errStructureddata]⟩
/-- rfc5424/machine.go:2076, end of input: line 11900 -/
def r20 : Row Act := ⟨[], [(33, 33, st 21), (35, 60, st 21), (61, 61, tr45), (62, 92, st 21), (94, 126, st 21)], tr42, [.errSdparam, .errStructureddata]⟩
/-- rfc5424/machine.go:2096, end of input: line 11900 -/
def r21 : Row Act := ⟨[], [(33, 33, st 22), (35, 60, st 22), (61, 61, tr45), (62, 92, st 22), (94, 126, st 22)], tr42, [.errSdparam, .errStructureddata]⟩
/-- rfc5424/machine.go:2116, end of input: line 11900 -/
def r22 : Row Act := ⟨[], [(33, 33, st 23), (35, 60, st 23), (61, 61, tr45), (62, 92, st 23), (94, 126, st 23)], tr42, [.errSdparam, .errStructureddata]⟩
/-- rfc5424/machine.go:2136, end of input: line 11900 -/
def r23 : Row Act := ⟨[], [(33, 33, st 24), (35, 60, st 24), (61, 61, tr45), (62, 92, st 24), (94, 126, st 24)], tr42, [.errSdparam, .errStructureddata]⟩
/-- rfc5424/machine.go:2156, end of input: line 11900 -/
def r24 : Row Act := ⟨[], [(33, 33, st 25), (35, 60, st 25), (61, 61, tr45), (62, 92, st 25), (94, 126, st 25)], tr42, [.errSdparam, .errStructureddata]⟩
/-- rfc5424/machine.go:2176, end of input: line 11900 -/
def r25 : Row Act := ⟨[], [(33, 33, st 26), (35, 60, st 26), (61, 61, tr45), (62, 92, st 26), (94, 126, st 26)], tr42, [.errSdparam, .errStructureddata]⟩
/-- rfc5424/machine.go:2196, end of input: line 11900 -/
def r26 : Row Act := ⟨[], [(33, 33, st 27), (35, 60, st 27), (61, 61, tr45), (62, 92, st 27), (94, 126, st 27)], tr42, [.errSdparam, .errStructureddata]⟩
/-- rfc5424/machine.go:2216, end of input: line 11900 -/
def r27 : Row Act := ⟨[], [(33, 33, st 28), (35, 60, st 28), (61, 61, tr45), (62, 92, st 28), (94, 126, st 28)], tr42, [.errSdparam, .errStructureddata]⟩
/-- rfc5424/machine.go:2236, end of input: line 11900 -/
def r28 : Row Act := ⟨[], [(33, 33, st 29), (35, 60, st 29), (61, 61, tr45), (62, 92, st 29), (94, 126, st 29)], tr42, [.errSdparam, .errStructureddata]⟩
/-- rfc5424/machine.go:2256, end of input: line 11900 -/
def r29 : Row Act := ⟨[], [(33, 33, st 30), (35, 60, st 30), (61, 61, tr45), (62, 92, st 30), (94, 126, st 30)], tr42, [.errSdparam, .errStructureddata]⟩
/-- rfc5424/machine.go:2276, end of input: line 11900 -/
def r30 : Row Act := ⟨[], [(33, 33, st 31), (35, 60, st 31), (61, 61, tr45), (62, 92, st 31), (94, 126, st 31)], tr42, [.errSdparam, .errStructureddata]⟩
/-- rfc5424/machine.go:2296, end of input: line 11900 -/
def r31 : Row Act := ⟨[], [(33, 33, st 32), (35, 60, st 32), (61, 61, tr45), (62, 92, st 32), (94, 126, st 32)], tr42, [.errSdparam, .errStructureddata]⟩
/-- rfc5424/machine.go:2316, end of input: line 11900 -/
def r32 : Row Act := ⟨[], [(33, 33, st 33), (35, 60, st 33), (61, 61, tr45), (62, 92, st 33), (94, 126, st 33)], tr42, [.errSdparam, .errStructureddata]⟩
/-- rfc5424/machine.go:2336, end of input: line 11900 -/
def r33 : Row Act := ⟨[], [(33, 33, st 34), (35, 60, st 34), (61, 61, tr45), (62, 92, st 34), (94, 126, st 34)], tr42, [.errSdparam, .errStructureddata]⟩
/-- rfc5424/machine.go:2356, end of input: line 11900 -/
def r34 : Row Act := ⟨[], [(33, 33, st 35), (35, 60, st 35), (61, 61, tr45), (62, 92, st 35), (94, 126, st 35)], tr42, [.errSdparam, .errStructureddata]⟩
/-- rfc5424/machine.go:2376, end of input: line 11900 -/
def r35 : Row Act := ⟨[], [(33, 33, st 36), (35, 60, st 36), (61, 61, tr45), (62, 92, st 36), (94, 126, st 36)], tr42, [.errSdparam, .errStructureddata]⟩
/-- rfc5424/machine.go:2396, end of input: line 11900 -/
def r36 : Row Act := ⟨[], [(33, 33, st 37), (35, 60, st 37), (61, 61, tr45), (62, 92, st 37), (94, 126, st 37)], tr42, [.errSdparam, .errStructureddata]⟩
/-- rfc5424/machine.go:2416, end of input: line 11900 -/
def r37 : Row Act := ⟨[], [(33, 33, st 38), (35, 60, st 38), (61, 61, tr45), (62, 92, st 38), (94, 126, st 38)], tr42, [.errSdparam, .errStructureddata]⟩
/-- rfc5424/machine.go:2436, end of input: line 11900 -/
def r38 : Row Act := ⟨[], [(33, 33, st 39), (35, 60, st 39), (61, 61, tr45), (62, 92, st 39), (94, 126, st 39)], tr42, [.errSdparam, .errStructureddata]⟩
/-- rfc5424/machine.go:2456, end of input: line 11900 -/
def r39 : Row Act := ⟨[], [(33, 33, st 40), (35, 60, st 40), (61, 61, tr45), (62, 92, st 40), (94, 126, st 40)], tr42, [.errSdparam, .errStructureddata]⟩
/-- rfc5424/machine.go:2476, end of input: line 11900 -/
def r40 : Row Act := ⟨[], [(33, 33, st 41), (35, 60, st 41), (61, 61, tr45), (62, 92, st 41), (94, 126, st 41)], tr42, [.errSdparam, .errStructureddata]⟩
/-- rfc5424/machine.go:2496, end of input: line 11900 -/
def r41 : Row Act := ⟨[], [(33, 33, st 42), (35, 60, st 42), (61, 61, tr45), (62, 92, st 42), (94, 126, st 42)], tr42, [.errSdparam, .errStructureddata]⟩
/-- rfc5424/machine.go:2516, end of input: line 11900 -/
def r42 : Row Act := ⟨[], [(33, 33, st 43), (35, 60, st 43), (61, 61, tr45), (62, 92, st 43), (94, 126, st 43)], tr42, [.errSdparam, .errStructureddata]⟩
/-- rfc5424/machine.go:2536, end of input: line 11900 -/
def r43 : Row Act := ⟨[], [(33, 33, st 44), (35, 60, st 44), (61, 61, tr45), (62, 92, st 44), (94, 126, st 44)], tr42, [.errSdparam, .errStructureddata]⟩
/-- rfc5424/machine.go:2556, end of input: line 11900 -/
def r44 : Row Act := ⟨[], [(33, 33, st 45), (35, 60, st 45), (61, 61, tr45), (62, 92, st 45), (94, 126, st 45)], tr42, [.errSdparam, .errStructureddata]⟩
/-- rfc5424/machine.go:2576, end of input: line 11900 -/
def r45 : Row Act := ⟨[], [(33, 33, st 46), (35, 60, st 46), (61, 61, tr45), (62, 92, st 46), (94, 126, st 46)], tr42, [.errSdparam, .errStructureddata]⟩
/-- rfc5424/machine.go:2596, end of input: line 11900 -/
def r46 : Row Act := ⟨[], [(33, 33, st 47), (35, 60, st 47), (61, 61, tr45), (62, 92, st 47), (94, 126, st 47)], tr42, [.errSdparam, .errStructureddata]⟩
/-- rfc5424/machine.go:2616, end of input: line 11900 -/
def r47 : Row Act := ⟨[], [(33, 33, st 48), (35, 60, st 48), (61, 61, tr45), (62, 92, st 48), (94, 126, st 48)], tr42, [.errSdparam, .errStructureddata]⟩
/-- rfc5424/machine.go:2636, end of input: line 11900 -/
def r48 : Row Act := ⟨[], [(33, 33, st 49), (35, 60, st 49), (61, 61, tr45), (62, 92, st 49), (94, 126, st 49)], tr42, [.errSdparam, .errStructureddata]⟩
/-- rfc5424/machine.go:2656, end of input: line 11900 -/
def r49 : Row Act := ⟨[], [(33, 33, st 50), (35, 60, st 50), (61, 61, tr45), (62, 92, st 50), (94, 126, st 50)], tr42, [.errSdparam, .errStructureddata]⟩
/-- rfc5424/machine.go:2676, end of input: line 11900 -/
def r50 : Row Act := ⟨[], [(33, 33, st 51), (35, 60, st 51), (61, 61, tr45), (62, 92, st 51), (94, 126, st 51)], tr42, [.errSdparam, .errStructureddata]⟩
/-- rfc5424/machine.go:2696, end of input: line 11900 -/
def r51 : Row Act := ⟨[], [(61, 61, tr45)], tr42, [.errSdparam, .errStructureddata]⟩
/-- rfc5424/machine.go:2710, end of input: line 11900 -/
def r52 : Row Act := ⟨[], [(34, 34, st 53)], tr42, [.errSdparam, .errStructureddata]⟩
/-- rfc5424/machine.go:2719, end of input: line 12003 -/
def r53 : Row Act := ⟨[], [(34, 34, tr78), (92, 92, tr79), (93, 93, tr80), (128, 193, tr80), (194, 223, tr81), (224, 224, tr82), (225, 236, tr83), (237, 237, tr84), (238, 239, tr83), (240, 240, tr85), (241, 243, tr86), (244, 244, tr87), (245, 255, tr80)], tr77, [.errEscape, .errSdparam, .errStructureddata]⟩
/-- rfc5424/machine.go:2768, end of input: line 12003 -/
def r54 : Row Act := ⟨[], [(34, 34, tr89), (92, 92, tr90), (93, 93, tr80), (128, 193, tr80), (194, 223, st 57), (224, 224, st 58), (225, 236, st 59), (237, 237, st 60), (238, 239, st 59), (240, 240, st 61), (241, 243, st 62), (244, 244, st 63), (245, 255, tr80)], st 54, [.errEscape, .errSdparam, .errStructureddata]⟩
/-- rfc5424/machine.go:2846, end of input: line 11900 -/
def r55 : Row Act := ⟨[], [(32, 32, st 19), (93, 93, st 606)], tr42, [.errSdparam, .errStructureddata]⟩
/-- rfc5424/machine.go:2900, end of input: line 12003 -/
def r56 : Row Act := ⟨[], [(34, 34, st 54), (92, 93, st 54)], tr80, [.errEscape, .errSdparam, .errStructureddata]⟩
/-- rfc5424/machine.go:2917, end of input: line 11900 -/
def r57 : Row Act := ⟨[], [(128, 191, st 54)], tr42, [.errSdparam, .errStructureddata]⟩
/-- rfc5424/machine.go:2931, end of input: line 11900 -/
def r58 : Row Act := ⟨[], [(160, 191, st 57)], tr42, [.errSdparam, .errStructureddata]⟩
/-- rfc5424/machine.go:2945, end of input: line 11900 -/
def r59 : Row Act := ⟨[], [(128, 191, st 57)], tr42, [.errSdparam, .errStructureddata]⟩
/-- rfc5424/machine.go:2959, end of input: line 11900 -/
def r60 : Row Act := ⟨[], [(128, 159, st 57)], tr42, [.errSdparam, .errStructureddata]⟩
/-- rfc5424/machine.go:2973, end of input: line 11900 -/
def r61 : Row Act := ⟨[], [(144, 191, st 59)], tr42, [.errSdparam, .errStructureddata]⟩
/-- rfc5424/machine.go:2987, end of input: line 11900 -/
def r62 : Row Act := ⟨[], [(128, 191, st 59)], tr42, [.errSdparam, .errStructureddata]⟩
/-- rfc5424/machine.go:3001, end of input: line 11900 -/
def r63 : Row Act := ⟨[], [(128, 143, st 59)], tr42, [.errSdparam, .errStructureddata]⟩
/-- rfc5424/machine.go:3010, end of input: line 11927 -/
def r64 : Row Act := ⟨[], [(32, 32, tr39), (33, 33, st 65), (35, 60, st 65), (62, 92, st 65), (93, 93, tr41), (94, 126, st 65)], tr38, [.setId, .errSdid, .errStructureddata]⟩
/-- rfc5424/machine.go:3032, end of input: line 11927 -/
def r65 : Row Act := ⟨[], [(32, 32, tr39), (33, 33, st 66), (35, 60, st 66), (62, 92, st 66), (93, 93, tr41), (94, 126, st 66)], tr38, [.setId, .errSdid, .errStructureddata]⟩
/-- rfc5424/machine.go:3054, end of input: line 11927 -/
def r66 : Row Act := ⟨[], [(32, 32, tr39), (33, 33, st 67), (35, 60, st 67), (62, 92, st 67), (93, 93, tr41), (94, 126, st 67)], tr38, [.setId, .errSdid, .errStructureddata]⟩
/-- rfc5424/machine.go:3076, end of input: line 11927 -/
def r67 : Row Act := ⟨[], [(32, 32, tr39), (33, 33, st 68), (35, 60, st 68), (62, 92, st 68), (93, 93, tr41), (94, 126, st 68)], tr38, [.setId, .errSdid, .errStructureddata]⟩
/-- rfc5424/machine.go:3098, end of input: line 11927 -/
def r68 : Row Act := ⟨[], [(32, 32, tr39), (33, 33, st 69), (35, 60, st 69), (62, 92, st 69), (93, 93, tr41), (94, 126, st 69)], tr38, [.setId, .errSdid, .errStructureddata]⟩
/-- rfc5424/machine.go:3120, end of input: line 11927 -/
def r69 : Row Act := ⟨[], [(32, 32, tr39), (33, 33, st 70), (35, 60, st 70), (62, 92, st 70), (93, 93, tr41), (94, 126, st 70)], tr38, [.setId, .errSdid, .errStructureddata]⟩
/-- rfc5424/machine.go:3142, end of input: line 11927 -/
def r70 : Row Act := ⟨[], [(32, 32, tr39), (33, 33, st 71), (35, 60, st 71), (62, 92, st 71), (93, 93, tr41), (94, 126, st 71)], tr38, [.setId, .errSdid, .errStructureddata]⟩
/-- rfc5424/machine.go:3164, end of input: line 11927 -/
def r71 : Row Act := ⟨[], [(32, 32, tr39), (33, 33, st 72), (35, 60, st 72), (62, 92, st 72), (93, 93, tr41), (94, 126, st 72)], tr38, [.setId, .errSdid, .errStructureddata]⟩
/-- rfc5424/machine.go:3186, end of input: line 11927 -/
def r72 : Row Act := ⟨[], [(32, 32, tr39), (33, 33, st 73), (35, 60, st 73), (62, 92, st 73), (93, 93, tr41), (94, 126, st 73)], tr38, [.setId, .errSdid, .errStructureddata]⟩
/-- rfc5424/machine.go:3208, end of input: line 11927 -/
def r73 : Row Act := ⟨[], [(32, 32, tr39), (33, 33, st 74), (35, 60, st 74), (62, 92, st 74), (93, 93, tr41), (94, 126, st 74)], tr38, [.setId, .errSdid, .errStructureddata]⟩
/-- rfc5424/machine.go:3230, end of input: line 11927 -/
def r74 : Row Act := ⟨[], [(32, 32, tr39), (33, 33, st 75), (35, 60, st 75), (62, 92, st 75), (93, 93, tr41), (94, 126, st 75)], tr38, [.setId, .errSdid, .errStructureddata]⟩
/-- rfc5424/machine.go:3252, end of input: line 11927 -/
def r75 : Row Act := ⟨[], [(32, 32, tr39), (33, 33, st 76), (35, 60, st 76), (62, 92, st 76), (93, 93, tr41), (94, 126, st 76)], tr38, [.setId, .errSdid, .errStructureddata]⟩
/-- rfc5424/machine.go:3274, end of input: line 11927 -/
def r76 : Row Act := ⟨[], [(32, 32, tr39), (33, 33, st 77), (35, 60, st 77), (62, 92, st 77), (93, 93, tr41), (94, 126, st 77)], tr38, [.setId, .errSdid, .errStructureddata]⟩
/-- rfc5424/machine.go:3296, end of input: line 11927 -/
def r77 : Row Act := ⟨[], [(32, 32, tr39), (33, 33, st 78), (35, 60, st 78), (62, 92, st 78), (93, 93, tr41), (94, 126, st 78)], tr38, [.setId, .errSdid, .errStructureddata]⟩
/-- rfc5424/machine.go:3318, end of input: line 11927 -/
def r78 : Row Act := ⟨[], [(32, 32, tr39), (33, 33, st 79), (35, 60, st 79), (62, 92, st 79), (93, 93, tr41), (94, 126, st 79)], tr38, [.setId, .errSdid, .errStructureddata]⟩
/-- rfc5424/machine.go:3340, end of input: line 11927 -/
def r79 : Row Act := ⟨[], [(32, 32, tr39), (33, 33, st 80), (35, 60, st 80), (62, 92, st 80), (93, 93, tr41), (94, 126, st 80)], tr38, [.setId, .errSdid, .errStructureddata]⟩
/-- rfc5424/machine.go:3362, end of input: line 11927 -/
def r80 : Row Act := ⟨[], [(32, 32, tr39), (33, 33, st 81), (35, 60, st 81), (62, 92, st 81), (93, 93, tr41), (94, 126, st 81)], tr38, [.setId, .errSdid, .errStructureddata]⟩
/-- rfc5424/machine.go:3384, end of input: line 11927 -/
def r81 : Row Act := ⟨[], [(32, 32, tr39), (33, 33, st 82), (35, 60, st 82), (62, 92, st 82), (93, 93, tr41), (94, 126, st 82)], tr38, [.setId, .errSdid, .errStructureddata]⟩
/-- rfc5424/machine.go:3406, end of input: line 11927 -/
def r82 : Row Act := ⟨[], [(32, 32, tr39), (33, 33, st 83), (35, 60, st 83), (62, 92, st 83), (93, 93, tr41), (94, 126, st 83)], tr38, [.setId, .errSdid, .errStructureddata]⟩
/-- rfc5424/machine.go:3428, end of input: line 11927 -/
def r83 : Row Act := ⟨[], [(32, 32, tr39), (33, 33, st 84), (35, 60, st 84), (62, 92, st 84), (93, 93, tr41), (94, 126, st 84)], tr38, [.setId, .errSdid, .errStructureddata]⟩
/-- rfc5424/machine.go:3450, end of input: line 11927 -/
def r84 : Row Act := ⟨[], [(32, 32, tr39), (33, 33, st 85), (35, 60, st 85), (62, 92, st 85), (93, 93, tr41), (94, 126, st 85)], tr38, [.setId, .errSdid, .errStructureddata]⟩
/-- rfc5424/machine.go:3472, end of input: line 11927 -/
def r85 : Row Act := ⟨[], [(32, 32, tr39), (33, 33, st 86), (35, 60, st 86), (62, 92, st 86), (93, 93, tr41), (94, 126, st 86)], tr38, [.setId, .errSdid, .errStructureddata]⟩
/-- rfc5424/machine.go:3494, end of input: line 11927 -/
def r86 : Row Act := ⟨[], [(32, 32, tr39), (33, 33, st 87), (35, 60, st 87), (62, 92, st 87), (93, 93, tr41), (94, 126, st 87)], tr38, [.setId, .errSdid, .errStructureddata]⟩
/-- rfc5424/machine.go:3516, end of input: line 11927 -/
def r87 : Row Act := ⟨[], [(32, 32, tr39), (33, 33, st 88), (35, 60, st 88), (62, 92, st 88), (93, 93, tr41), (94, 126, st 88)], tr38, [.setId, .errSdid, .errStructureddata]⟩
/-- rfc5424/machine.go:3538, end of input: line 11927 -/
def r88 : Row Act := ⟨[], [(32, 32, tr39), (33, 33, st 89), (35, 60, st 89), (62, 92, st 89), (93, 93, tr41), (94, 126, st 89)], tr38, [.setId, .errSdid, .errStructureddata]⟩
/-- rfc5424/machine.go:3560, end of input: line 11927 -/
def r89 : Row Act := ⟨[], [(32, 32, tr39), (33, 33, st 90), (35, 60, st 90), (62, 92, st 90), (93, 93, tr41), (94, 126, st 90)], tr38, [.setId, .errSdid, .errStructureddata]⟩
/-- rfc5424/machine.go:3582, end of input: line 11927 -/
def r90 : Row Act := ⟨[], [(32, 32, tr39), (33, 33, st 91), (35, 60, st 91), (62, 92, st 91), (93, 93, tr41), (94, 126, st 91)], tr38, [.setId, .errSdid, .errStructureddata]⟩
/-- rfc5424/machine.go:3604, end of input: line 11927 -/
def r91 : Row Act := ⟨[], [(32, 32, tr39), (33, 33, st 92), (35, 60, st 92), (62, 92, st 92), (93, 93, tr41), (94, 126, st 92)], tr38, [.setId, .errSdid, .errStructureddata]⟩
/-- rfc5424/machine.go:3626, end of input: line 11927 -/
def r92 : Row Act := ⟨[], [(32, 32, tr39), (33, 33, st 93), (35, 60, st 93), (62, 92, st 93), (93, 93, tr41), (94, 126, st 93)], tr38, [.setId, .errSdid, .errStructureddata]⟩
/-- rfc5424/machine.go:3648, end of input: line 11927 -/
def r93 : Row Act := ⟨[], [(32, 32, tr39), (33, 33, st 94), (35, 60, st 94), (62, 92, st 94), (93, 93, tr41), (94, 126, st 94)], tr38, [.setId, .errSdid, .errStructureddata]⟩
/-- rfc5424/machine.go:3670, end of input: line 11927 -/
def r94 : Row Act := ⟨[], [(32, 32, tr39), (93, 93, tr41)], tr38, [.setId, .errSdid, .errStructureddata]⟩
/-- rfc5424/machine.go:3682, end of input: line 11705 -/
def r95 : Row Act := ⟨[], [(32, 32, tr31), (33, 126, st 96)], tr30, [.errMsgid]⟩
/-- rfc5424/machine.go:3694, end of input: line 11705 -/
def r96 : Row Act := ⟨[], [(32, 32, tr31), (33, 126, st 97)], tr30, [.errMsgid]⟩
/-- rfc5424/machine.go:3706, end of input: line 11705 -/
def r97 : Row Act := ⟨[], [(32, 32, tr31), (33, 126, st 98)], tr30, [.errMsgid]⟩
/-- rfc5424/machine.go:3718, end of input: line 11705 -/
def r98 : Row Act := ⟨[], [(32, 32, tr31), (33, 126, st 99)], tr30, [.errMsgid]⟩
/-- rfc5424/machine.go:3730, end of input: line 11705 -/
def r99 : Row Act := ⟨[], [(32, 32, tr31), (33, 126, st 100)], tr30, [.errMsgid]⟩
/-- rfc5424/machine.go:3742, end of input: line 11705 -/
def r100 : Row Act := ⟨[], [(32, 32, tr31), (33, 126, st 101)], tr30, [.errMsgid]⟩
/-- rfc5424/machine.go:3754, end of input: line 11705 -/
def r101 : Row Act := ⟨[], [(32, 32, tr31), (33, 126, st 102)], tr30, [.errMsgid]⟩
/-- rfc5424/machine.go:3766, end of input: line 11705 -/
def r102 : Row Act := ⟨[], [(32, 32, tr31), (33, 126, st 103)], tr30, [.errMsgid]⟩
/-- rfc5424/machine.go:3778, end of input: line 11705 -/
def r103 : Row Act := ⟨[], [(32, 32, tr31), (33, 126, st 104)], tr30, [.errMsgid]⟩
/-- rfc5424/machine.go:3790, end of input: line 11705 -/
def r104 : Row Act := ⟨[], [(32, 32, tr31), (33, 126, st 105)], tr30, [.errMsgid]⟩
/-- rfc5424/machine.go:3802, end of input: line 11705 -/
def r105 : Row Act := ⟨[], [(32, 32, tr31), (33, 126, st 106)], tr30, [.errMsgid]⟩
/-- rfc5424/machine.go:3814, end of input: line 11705 -/
def r106 : Row Act := ⟨[], [(32, 32, tr31), (33, 126, st 107)], tr30, [.errMsgid]⟩
/-- rfc5424/machine.go:3826, end of input: line 11705 -/
def r107 : Row Act := ⟨[], [(32, 32, tr31), (33, 126, st 108)], tr30, [.errMsgid]⟩
/-- rfc5424/machine.go:3838, end of input: line 11705 -/
def r108 : Row Act := ⟨[], [(32, 32, tr31), (33, 126, st 109)], tr30, [.errMsgid]⟩
/-- rfc5424/machine.go:3850, end of input: line 11705 -/
def r109 : Row Act := ⟨[], [(32, 32, tr31), (33, 126, st 110)], tr30, [.errMsgid]⟩
/-- rfc5424/machine.go:3862, end of input: line 11705 -/
def r110 : Row Act := ⟨[], [(32, 32, tr31), (33, 126, st 111)], tr30, [.errMsgid]⟩
/-- rfc5424/machine.go:3874, end of input: line 11705 -/
def r111 : Row Act := ⟨[], [(32, 32, tr31), (33, 126, st 112)], tr30, [.errMsgid]⟩
/-- rfc5424/machine.go:3886, end of input: line 11705 -/
def r112 : Row Act := ⟨[], [(32, 32, tr31), (33, 126, st 113)], tr30, [.errMsgid]⟩
/-- rfc5424/machine.go:3898, end of input: line 11705 -/
def r113 : Row Act := ⟨[], [(32, 32, tr31), (33, 126, st 114)], tr30, [.errMsgid]⟩
/-- rfc5424/machine.go:3910, end of input: line 11705 -/
def r114 : Row Act := ⟨[], [(32, 32, tr31), (33, 126, st 115)], tr30, [.errMsgid]⟩
/-- rfc5424/machine.go:3922, end of input: line 11705 -/
def r115 : Row Act := ⟨[], [(32, 32, tr31), (33, 126, st 116)], tr30, [.errMsgid]⟩
/-- rfc5424/machine.go:3934, end of input: line 11705 -/
def r116 : Row Act := ⟨[], [(32, 32, tr31), (33, 126, st 117)], tr30, [.errMsgid]⟩
/-- rfc5424/machine.go:3946, end of input: line 11705 -/
def r117 : Row Act := ⟨[], [(32, 32, tr31), (33, 126, st 118)], tr30, [.errMsgid]⟩
/-- rfc5424/machine.go:3958, end of input: line 11705 -/
def r118 : Row Act := ⟨[], [(32, 32, tr31), (33, 126, st 119)], tr30, [.errMsgid]⟩
/-- rfc5424/machine.go:3970, end of input: line 11705 -/
def r119 : Row Act := ⟨[], [(32, 32, tr31), (33, 126, st 120)], tr30, [.errMsgid]⟩
/-- rfc5424/machine.go:3982, end of input: line 11705 -/
def r120 : Row Act := ⟨[], [(32, 32, tr31), (33, 126, st 121)], tr30, [.errMsgid]⟩
/-- rfc5424/machine.go:3994, end of input: line 11705 -/
def r121 : Row Act := ⟨[], [(32, 32, tr31), (33, 126, st 122)], tr30, [.errMsgid]⟩
/-- rfc5424/machine.go:4006, end of input: line 11705 -/
def r122 : Row Act := ⟨[], [(32, 32, tr31), (33, 126, st 123)], tr30, [.errMsgid]⟩
/-- rfc5424/machine.go:4018, end of input: line 11705 -/
def r123 : Row Act := ⟨[], [(32, 32, tr31), (33, 126, st 124)], tr30, [.errMsgid]⟩
/-- rfc5424/machine.go:4030, end of input: line 11705 -/
def r124 : Row Act := ⟨[], [(32, 32, tr31), (33, 126, st 125)], tr30, [.errMsgid]⟩
/-- rfc5424/machine.go:4042, end of input: line 11705 -/
def r125 : Row Act := ⟨[], [(32, 32, tr31)], tr30, [.errMsgid]⟩
/-- rfc5424/machine.go:4051, end of input: line 11848 -/
def r126 : Row Act := ⟨[], [(32, 32, tr26), (33, 126, st 127)], tr24, [.errProcid, .errParse]⟩
/-- rfc5424/machine.go:4063, end of input: line 11848 -/
def r127 : Row Act := ⟨[], [(32, 32, tr26), (33, 126, st 128)], tr24, [.errProcid, .errParse]⟩
/-- rfc5424/machine.go:4075, end of input: line 11848 -/
def r128 : Row Act := ⟨[], [(32, 32, tr26), (33, 126, st 129)], tr24, [.errProcid, .errParse]⟩
/-- rfc5424/machine.go:4087, end of input: line 11848 -/
def r129 : Row Act := ⟨[], [(32, 32, tr26), (33, 126, st 130)], tr24, [.errProcid, .errParse]⟩
/-- rfc5424/machine.go:4099, end of input: line 11848 -/
def r130 : Row Act := ⟨[], [(32, 32, tr26), (33, 126, st 131)], tr24, [.errProcid, .errParse]⟩
/-- rfc5424/machine.go:4111, end of input: line 11848 -/
def r131 : Row Act := ⟨[], [(32, 32, tr26), (33, 126, st 132)], tr24, [.errProcid, .errParse]⟩
/-- rfc5424/machine.go:4123, end of input: line 11848 -/
def r132 : Row Act := ⟨[], [(32, 32, tr26), (33, 126, st 133)], tr24, [.errProcid, .errParse]⟩
/-- rfc5424/machine.go:4135, end of input: line 11848 -/
def r133 : Row Act := ⟨[], [(32, 32, tr26), (33, 126, st 134)], tr24, [.errProcid, .errParse]⟩
/-- rfc5424/machine.go:4147, end of input: line 11848 -/
def r134 : Row Act := ⟨[], [(32, 32, tr26), (33, 126, st 135)], tr24, [.errProcid, .errParse]⟩
/-- rfc5424/machine.go:4159, end of input: line 11848 -/
def r135 : Row Act := ⟨[], [(32, 32, tr26), (33, 126, st 136)], tr24, [.errProcid, .errParse]⟩
/-- rfc5424/machine.go:4171, end of input: line 11848 -/
def r136 : Row Act := ⟨[], [(32, 32, tr26), (33, 126, st 137)], tr24, [.errProcid, .errParse]⟩
/-- rfc5424/machine.go:4183, end of input: line 11848 -/
def r137 : Row Act := ⟨[], [(32, 32, tr26), (33, 126, st 138)], tr24, [.errProcid, .errParse]⟩
/-- rfc5424/machine.go:4195, end of input: line 11848 -/
def r138 : Row Act := ⟨[], [(32, 32, tr26), (33, 126, st 139)], tr24, [.errProcid, .errParse]⟩
/-- rfc5424/machine.go:4207, end of input: line 11848 -/
def r139 : Row Act := ⟨[], [(32, 32, tr26), (33, 126, st 140)], tr24, [.errProcid, .errParse]⟩
/-- rfc5424/machine.go:4219, end of input: line 11848 -/
def r140 : Row Act := ⟨[], [(32, 32, tr26), (33, 126, st 141)], tr24, [.errProcid, .errParse]⟩
/-- rfc5424/machine.go:4231, end of input: line 11848 -/
def r141 : Row Act := ⟨[], [(32, 32, tr26), (33, 126, st 142)], tr24, [.errProcid, .errParse]⟩
/-- rfc5424/machine.go:4243, end of input: line 11848 -/
def r142 : Row Act := ⟨[], [(32, 32, tr26), (33, 126, st 143)], tr24, [.errProcid, .errParse]⟩
/-- rfc5424/machine.go:4255, end of input: line 11848 -/
def r143 : Row Act := ⟨[], [(32, 32, tr26), (33, 126, st 144)], tr24, [.errProcid, .errParse]⟩
/-- rfc5424/machine.go:4267, end of input: line 11848 -/
def r144 : Row Act := ⟨[], [(32, 32, tr26), (33, 126, st 145)], tr24, [.errProcid, .errParse]⟩
/-- rfc5424/machine.go:4279, end of input: line 11848 -/
def r145 : Row Act := ⟨[], [(32, 32, tr26), (33, 126, st 146)], tr24, [.errProcid, .errParse]⟩
/-- rfc5424/machine.go:4291, end of input: line 11848 -/
def r146 : Row Act := ⟨[], [(32, 32, tr26), (33, 126, st 147)], tr24, [.errProcid, .errParse]⟩
/-- rfc5424/machine.go:4303, end of input: line 11848 -/
def r147 : Row Act := ⟨[], [(32, 32, tr26), (33, 126, st 148)], tr24, [.errProcid, .errParse]⟩
/-- rfc5424/machine.go:4315, end of input: line 11848 -/
def r148 : Row Act := ⟨[], [(32, 32, tr26), (33, 126, st 149)], tr24, [.errProcid, .errParse]⟩
/-- rfc5424/machine.go:4327, end of input: line 11848 -/
def r149 : Row Act := ⟨[], [(32, 32, tr26), (33, 126, st 150)], tr24, [.errProcid, .errParse]⟩
/-- rfc5424/machine.go:4339, end of input: line 11848 -/
def r150 : Row Act := ⟨[], [(32, 32, tr26), (33, 126, st 151)], tr24, [.errProcid, .errParse]⟩
/-- rfc5424/machine.go:4351, end of input: line 11848 -/
def r151 : Row Act := ⟨[], [(32, 32, tr26), (33, 126, st 152)], tr24, [.errProcid, .errParse]⟩
/-- rfc5424/machine.go:4363, end of input: line 11848 -/
def r152 : Row Act := ⟨[], [(32, 32, tr26), (33, 126, st 153)], tr24, [.errProcid, .errParse]⟩
/-- rfc5424/machine.go:4375, end of input: line 11848 -/
def r153 : Row Act := ⟨[], [(32, 32, tr26), (33, 126, st 154)], tr24, [.errProcid, .errParse]⟩
/-- rfc5424/machine.go:4387, end of input: line 11848 -/
def r154 : Row Act := ⟨[], [(32, 32, tr26), (33, 126, st 155)], tr24, [.errProcid, .errParse]⟩
/-- rfc5424/machine.go:4399, end of input: line 11848 -/
def r155 : Row Act := ⟨[], [(32, 32, tr26), (33, 126, st 156)], tr24, [.errProcid, .errParse]⟩
/-- rfc5424/machine.go:4411, end of input: line 11848 -/
def r156 : Row Act := ⟨[], [(32, 32, tr26), (33, 126, st 157)], tr24, [.errProcid, .errParse]⟩
/-- rfc5424/machine.go:4423, end of input: line 11848 -/
def r157 : Row Act := ⟨[], [(32, 32, tr26), (33, 126, st 158)], tr24, [.errProcid, .errParse]⟩
/-- rfc5424/machine.go:4435, end of input: line 11848 -/
def r158 : Row Act := ⟨[], [(32, 32, tr26), (33, 126, st 159)], tr24, [.errProcid, .errParse]⟩
/-- rfc5424/machine.go:4447, end of input: line 11848 -/
def r159 : Row Act := ⟨[], [(32, 32, tr26), (33, 126, st 160)], tr24, [.errProcid, .errParse]⟩
/-- rfc5424/machine.go:4459, end of input: line 11848 -/
def r160 : Row Act := ⟨[], [(32, 32, tr26), (33, 126, st 161)], tr24, [.errProcid, .errParse]⟩
/-- rfc5424/machine.go:4471, end of input: line 11848 -/
def r161 : Row Act := ⟨[], [(32, 32, tr26), (33, 126, st 162)], tr24, [.errProcid, .errParse]⟩
/-- rfc5424/machine.go:4483, end of input: line 11848 -/
def r162 : Row Act := ⟨[], [(32, 32, tr26), (33, 126, st 163)], tr24, [.errProcid, .errParse]⟩
/-- rfc5424/machine.go:4495, end of input: line 11848 -/
def r163 : Row Act := ⟨[], [(32, 32, tr26), (33, 126, st 164)], tr24, [.errProcid, .errParse]⟩
/-- rfc5424/machine.go:4507, end of input: line 11848 -/
def r164 : Row Act := ⟨[], [(32, 32, tr26), (33, 126, st 165)], tr24, [.errProcid, .errParse]⟩
/-- rfc5424/machine.go:4519, end of input: line 11848 -/
def r165 : Row Act := ⟨[], [(32, 32, tr26), (33, 126, st 166)], tr24, [.errProcid, .errParse]⟩
/-- rfc5424/machine.go:4531, end of input: line 11848 -/
def r166 : Row Act := ⟨[], [(32, 32, tr26), (33, 126, st 167)], tr24, [.errProcid, .errParse]⟩
/-- rfc5424/machine.go:4543, end of input: line 11848 -/
def r167 : Row Act := ⟨[], [(32, 32, tr26), (33, 126, st 168)], tr24, [.errProcid, .errParse]⟩
/-- rfc5424/machine.go:4555, end of input: line 11848 -/
def r168 : Row Act := ⟨[], [(32, 32, tr26), (33, 126, st 169)], tr24, [.errProcid, .errParse]⟩
/-- rfc5424/machine.go:4567, end of input: line 11848 -/
def r169 : Row Act := ⟨[], [(32, 32, tr26), (33, 126, st 170)], tr24, [.errProcid, .errParse]⟩
/-- rfc5424/machine.go:4579, end of input: line 11848 -/
def r170 : Row Act := ⟨[], [(32, 32, tr26), (33, 126, st 171)], tr24, [.errProcid, .errParse]⟩
/-- rfc5424/machine.go:4591, end of input: line 11848 -/
def r171 : Row Act := ⟨[], [(32, 32, tr26), (33, 126, st 172)], tr24, [.errProcid, .errParse]⟩
/-- rfc5424/machine.go:4603, end of input: line 11848 -/
def r172 : Row Act := ⟨[], [(32, 32, tr26), (33, 126, st 173)], tr24, [.errProcid, .errParse]⟩
/-- rfc5424/machine.go:4615, end of input: line 11848 -/
def r173 : Row Act := ⟨[], [(32, 32, tr26), (33, 126, st 174)], tr24, [.errProcid, .errParse]⟩
/-- rfc5424/machine.go:4627, end of input: line 11848 -/
def r174 : Row Act := ⟨[], [(32, 32, tr26), (33, 126, st 175)], tr24, [.errProcid, .errParse]⟩
/-- rfc5424/machine.go:4639, end of input: line 11848 -/
def r175 : Row Act := ⟨[], [(32, 32, tr26), (33, 126, st 176)], tr24, [.errProcid, .errParse]⟩
/-- rfc5424/machine.go:4651, end of input: line 11848 -/
def r176 : Row Act := ⟨[], [(32, 32, tr26), (33, 126, st 177)], tr24, [.errProcid, .errParse]⟩
/-- rfc5424/machine.go:4663, end of input: line 11848 -/
def r177 : Row Act := ⟨[], [(32, 32, tr26), (33, 126, st 178)], tr24, [.errProcid, .errParse]⟩
/-- rfc5424/machine.go:4675, end of input: line 11848 -/
def r178 : Row Act := ⟨[], [(32, 32, tr26), (33, 126, st 179)], tr24, [.errProcid, .errParse]⟩
/-- rfc5424/machine.go:4687, end of input: line 11848 -/
def r179 : Row Act := ⟨[], [(32, 32, tr26), (33, 126, st 180)], tr24, [.errProcid, .errParse]⟩
/-- rfc5424/machine.go:4699, end of input: line 11848 -/
def r180 : Row Act := ⟨[], [(32, 32, tr26), (33, 126, st 181)], tr24, [.errProcid, .errParse]⟩
/-- rfc5424/machine.go:4711, end of input: line 11848 -/
def r181 : Row Act := ⟨[], [(32, 32, tr26), (33, 126, st 182)], tr24, [.errProcid, .errParse]⟩
/-- rfc5424/machine.go:4723, end of input: line 11848 -/
def r182 : Row Act := ⟨[], [(32, 32, tr26), (33, 126, st 183)], tr24, [.errProcid, .errParse]⟩
/-- rfc5424/machine.go:4735, end of input: line 11848 -/
def r183 : Row Act := ⟨[], [(32, 32, tr26), (33, 126, st 184)], tr24, [.errProcid, .errParse]⟩
/-- rfc5424/machine.go:4747, end of input: line 11848 -/
def r184 : Row Act := ⟨[], [(32, 32, tr26), (33, 126, st 185)], tr24, [.errProcid, .errParse]⟩
/-- rfc5424/machine.go:4759, end of input: line 11848 -/
def r185 : Row Act := ⟨[], [(32, 32, tr26), (33, 126, st 186)], tr24, [.errProcid, .errParse]⟩
/-- rfc5424/machine.go:4771, end of input: line 11848 -/
def r186 : Row Act := ⟨[], [(32, 32, tr26), (33, 126, st 187)], tr24, [.errProcid, .errParse]⟩
/-- rfc5424/machine.go:4783, end of input: line 11848 -/
def r187 : Row Act := ⟨[], [(32, 32, tr26), (33, 126, st 188)], tr24, [.errProcid, .errParse]⟩
/-- rfc5424/machine.go:4795, end of input: line 11848 -/
def r188 : Row Act := ⟨[], [(32, 32, tr26), (33, 126, st 189)], tr24, [.errProcid, .errParse]⟩
/-- rfc5424/machine.go:4807, end of input: line 11848 -/
def r189 : Row Act := ⟨[], [(32, 32, tr26), (33, 126, st 190)], tr24, [.errProcid, .errParse]⟩
/-- rfc5424/machine.go:4819, end of input: line 11848 -/
def r190 : Row Act := ⟨[], [(32, 32, tr26), (33, 126, st 191)], tr24, [.errProcid, .errParse]⟩
/-- rfc5424/machine.go:4831, end of input: line 11848 -/
def r191 : Row Act := ⟨[], [(32, 32, tr26), (33, 126, st 192)], tr24, [.errProcid, .errParse]⟩
/-- rfc5424/machine.go:4843, end of input: line 11848 -/
def r192 : Row Act := ⟨[], [(32, 32, tr26), (33, 126, st 193)], tr24, [.errProcid, .errParse]⟩
/-- rfc5424/machine.go:4855, end of input: line 11848 -/
def r193 : Row Act := ⟨[], [(32, 32, tr26), (33, 126, st 194)], tr24, [.errProcid, .errParse]⟩
/-- rfc5424/machine.go:4867, end of input: line 11848 -/
def r194 : Row Act := ⟨[], [(32, 32, tr26), (33, 126, st 195)], tr24, [.errProcid, .errParse]⟩
/-- rfc5424/machine.go:4879, end of input: line 11848 -/
def r195 : Row Act := ⟨[], [(32, 32, tr26), (33, 126, st 196)], tr24, [.errProcid, .errParse]⟩
/-- rfc5424/machine.go:4891, end of input: line 11848 -/
def r196 : Row Act := ⟨[], [(32, 32, tr26), (33, 126, st 197)], tr24, [.errProcid, .errParse]⟩
/-- rfc5424/machine.go:4903, end of input: line 11848 -/
def r197 : Row Act := ⟨[], [(32, 32, tr26), (33, 126, st 198)], tr24, [.errProcid, .errParse]⟩
/-- rfc5424/machine.go:4915, end of input: line 11848 -/
def r198 : Row Act := ⟨[], [(32, 32, tr26), (33, 126, st 199)], tr24, [.errProcid, .errParse]⟩
/-- rfc5424/machine.go:4927, end of input: line 11848 -/
def r199 : Row Act := ⟨[], [(32, 32, tr26), (33, 126, st 200)], tr24, [.errProcid, .errParse]⟩
/-- rfc5424/machine.go:4939, end of input: line 11848 -/
def r200 : Row Act := ⟨[], [(32, 32, tr26), (33, 126, st 201)], tr24, [.errProcid, .errParse]⟩
/-- rfc5424/machine.go:4951, end of input: line 11848 -/
def r201 : Row Act := ⟨[], [(32, 32, tr26), (33, 126, st 202)], tr24, [.errProcid, .errParse]⟩
/-- rfc5424/machine.go:4963, end of input: line 11848 -/
def r202 : Row Act := ⟨[], [(32, 32, tr26), (33, 126, st 203)], tr24, [.errProcid, .errParse]⟩
/-- rfc5424/machine.go:4975, end of input: line 11848 -/
def r203 : Row Act := ⟨[], [(32, 32, tr26), (33, 126, st 204)], tr24, [.errProcid, .errParse]⟩
/-- rfc5424/machine.go:4987, end of input: line 11848 -/
def r204 : Row Act := ⟨[], [(32, 32, tr26), (33, 126, st 205)], tr24, [.errProcid, .errParse]⟩
/-- rfc5424/machine.go:4999, end of input: line 11848 -/
def r205 : Row Act := ⟨[], [(32, 32, tr26), (33, 126, st 206)], tr24, [.errProcid, .errParse]⟩
/-- rfc5424/machine.go:5011, end of input: line 11848 -/
def r206 : Row Act := ⟨[], [(32, 32, tr26), (33, 126, st 207)], tr24, [.errProcid, .errParse]⟩
/-- rfc5424/machine.go:5023, end of input: line 11848 -/
def r207 : Row Act := ⟨[], [(32, 32, tr26), (33, 126, st 208)], tr24, [.errProcid, .errParse]⟩
/-- rfc5424/machine.go:5035, end of input: line 11848 -/
def r208 : Row Act := ⟨[], [(32, 32, tr26), (33, 126, st 209)], tr24, [.errProcid, .errParse]⟩
/-- rfc5424/machine.go:5047, end of input: line 11848 -/
def r209 : Row Act := ⟨[], [(32, 32, tr26), (33, 126, st 210)], tr24, [.errProcid, .errParse]⟩
/-- rfc5424/machine.go:5059, end of input: line 11848 -/
def r210 : Row Act := ⟨[], [(32, 32, tr26), (33, 126, st 211)], tr24, [.errProcid, .errParse]⟩
/-- rfc5424/machine.go:5071, end of input: line 11848 -/
def r211 : Row Act := ⟨[], [(32, 32, tr26), (33, 126, st 212)], tr24, [.errProcid, .errParse]⟩
/-- rfc5424/machine.go:5083, end of input: line 11848 -/
def r212 : Row Act := ⟨[], [(32, 32, tr26), (33, 126, st 213)], tr24, [.errProcid, .errParse]⟩
/-- rfc5424/machine.go:5095, end of input: line 11848 -/
def r213 : Row Act := ⟨[], [(32, 32, tr26), (33, 126, st 214)], tr24, [.errProcid, .errParse]⟩
/-- rfc5424/machine.go:5107, end of input: line 11848 -/
def r214 : Row Act := ⟨[], [(32, 32, tr26), (33, 126, st 215)], tr24, [.errProcid, .errParse]⟩
/-- rfc5424/machine.go:5119, end of input: line 11848 -/
def r215 : Row Act := ⟨[], [(32, 32, tr26), (33, 126, st 216)], tr24, [.errProcid, .errParse]⟩
/-- rfc5424/machine.go:5131, end of input: line 11848 -/
def r216 : Row Act := ⟨[], [(32, 32, tr26), (33, 126, st 217)], tr24, [.errProcid, .errParse]⟩
/-- rfc5424/machine.go:5143, end of input: line 11848 -/
def r217 : Row Act := ⟨[], [(32, 32, tr26), (33, 126, st 218)], tr24, [.errProcid, .errParse]⟩
/-- rfc5424/machine.go:5155, end of input: line 11848 -/
def r218 : Row Act := ⟨[], [(32, 32, tr26), (33, 126, st 219)], tr24, [.errProcid, .errParse]⟩
/-- rfc5424/machine.go:5167, end of input: line 11848 -/
def r219 : Row Act := ⟨[], [(32, 32, tr26), (33, 126, st 220)], tr24, [.errProcid, .errParse]⟩
/-- rfc5424/machine.go:5179, end of input: line 11848 -/
def r220 : Row Act := ⟨[], [(32, 32, tr26), (33, 126, st 221)], tr24, [.errProcid, .errParse]⟩
/-- rfc5424/machine.go:5191, end of input: line 11848 -/
def r221 : Row Act := ⟨[], [(32, 32, tr26), (33, 126, st 222)], tr24, [.errProcid, .errParse]⟩
/-- rfc5424/machine.go:5203, end of input: line 11848 -/
def r222 : Row Act := ⟨[], [(32, 32, tr26), (33, 126, st 223)], tr24, [.errProcid, .errParse]⟩
/-- rfc5424/machine.go:5215, end of input: line 11848 -/
def r223 : Row Act := ⟨[], [(32, 32, tr26), (33, 126, st 224)], tr24, [.errProcid, .errParse]⟩
/-- rfc5424/machine.go:5227, end of input: line 11848 -/
def r224 : Row Act := ⟨[], [(32, 32, tr26), (33, 126, st 225)], tr24, [.errProcid, .errParse]⟩
/-- rfc5424/machine.go:5239, end of input: line 11848 -/
def r225 : Row Act := ⟨[], [(32, 32, tr26), (33, 126, st 226)], tr24, [.errProcid, .errParse]⟩
/-- rfc5424/machine.go:5251, end of input: line 11848 -/
def r226 : Row Act := ⟨[], [(32, 32, tr26), (33, 126, st 227)], tr24, [.errProcid, .errParse]⟩
/-- rfc5424/machine.go:5263, end of input: line 11848 -/
def r227 : Row Act := ⟨[], [(32, 32, tr26), (33, 126, st 228)], tr24, [.errProcid, .errParse]⟩
/-- rfc5424/machine.go:5275, end of input: line 11848 -/
def r228 : Row Act := ⟨[], [(32, 32, tr26), (33, 126, st 229)], tr24, [.errProcid, .errParse]⟩
/-- rfc5424/machine.go:5287, end of input: line 11848 -/
def r229 : Row Act := ⟨[], [(32, 32, tr26), (33, 126, st 230)], tr24, [.errProcid, .errParse]⟩
/-- rfc5424/machine.go:5299, end of input: line 11848 -/
def r230 : Row Act := ⟨[], [(32, 32, tr26), (33, 126, st 231)], tr24, [.errProcid, .errParse]⟩
/-- rfc5424/machine.go:5311, end of input: line 11848 -/
def r231 : Row Act := ⟨[], [(32, 32, tr26), (33, 126, st 232)], tr24, [.errProcid, .errParse]⟩
/-- rfc5424/machine.go:5323, end of input: line 11848 -/
def r232 : Row Act := ⟨[], [(32, 32, tr26), (33, 126, st 233)], tr24, [.errProcid, .errParse]⟩
/-- rfc5424/machine.go:5335, end of input: line 11848 -/
def r233 : Row Act := ⟨[], [(32, 32, tr26), (33, 126, st 234)], tr24, [.errProcid, .errParse]⟩
/-- rfc5424/machine.go:5347, end of input: line 11848 -/
def r234 : Row Act := ⟨[], [(32, 32, tr26), (33, 126, st 235)], tr24, [.errProcid, .errParse]⟩
/-- rfc5424/machine.go:5359, end of input: line 11848 -/
def r235 : Row Act := ⟨[], [(32, 32, tr26), (33, 126, st 236)], tr24, [.errProcid, .errParse]⟩
/-- rfc5424/machine.go:5371, end of input: line 11848 -/
def r236 : Row Act := ⟨[], [(32, 32, tr26), (33, 126, st 237)], tr24, [.errProcid, .errParse]⟩
/-- rfc5424/machine.go:5383, end of input: line 11848 -/
def r237 : Row Act := ⟨[], [(32, 32, tr26), (33, 126, st 238)], tr24, [.errProcid, .errParse]⟩
/-- rfc5424/machine.go:5395, end of input: line 11848 -/
def r238 : Row Act := ⟨[], [(32, 32, tr26), (33, 126, st 239)], tr24, [.errProcid, .errParse]⟩
/-- rfc5424/machine.go:5407, end of input: line 11848 -/
def r239 : Row Act := ⟨[], [(32, 32, tr26), (33, 126, st 240)], tr24, [.errProcid, .errParse]⟩
/-- rfc5424/machine.go:5419, end of input: line 11848 -/
def r240 : Row Act := ⟨[], [(32, 32, tr26), (33, 126, st 241)], tr24, [.errProcid, .errParse]⟩
/-- rfc5424/machine.go:5431, end of input: line 11848 -/
def r241 : Row Act := ⟨[], [(32, 32, tr26), (33, 126, st 242)], tr24, [.errProcid, .errParse]⟩
/-- rfc5424/machine.go:5443, end of input: line 11848 -/
def r242 : Row Act := ⟨[], [(32, 32, tr26), (33, 126, st 243)], tr24, [.errProcid, .errParse]⟩
/-- rfc5424/machine.go:5455, end of input: line 11848 -/
def r243 : Row Act := ⟨[], [(32, 32, tr26), (33, 126, st 244)], tr24, [.errProcid, .errParse]⟩
/-- rfc5424/machine.go:5467, end of input: line 11848 -/
def r244 : Row Act := ⟨[], [(32, 32, tr26), (33, 126, st 245)], tr24, [.errProcid, .errParse]⟩
/-- rfc5424/machine.go:5479, end of input: line 11848 -/
def r245 : Row Act := ⟨[], [(32, 32, tr26), (33, 126, st 246)], tr24, [.errProcid, .errParse]⟩
/-- rfc5424/machine.go:5491, end of input: line 11848 -/
def r246 : Row Act := ⟨[], [(32, 32, tr26), (33, 126, st 247)], tr24, [.errProcid, .errParse]⟩
/-- rfc5424/machine.go:5503, end of input: line 11848 -/
def r247 : Row Act := ⟨[], [(32, 32, tr26), (33, 126, st 248)], tr24, [.errProcid, .errParse]⟩
/-- rfc5424/machine.go:5515, end of input: line 11848 -/
def r248 : Row Act := ⟨[], [(32, 32, tr26), (33, 126, st 249)], tr24, [.errProcid, .errParse]⟩
/-- rfc5424/machine.go:5527, end of input: line 11848 -/
def r249 : Row Act := ⟨[], [(32, 32, tr26), (33, 126, st 250)], tr24, [.errProcid, .errParse]⟩
/-- rfc5424/machine.go:5539, end of input: line 11848 -/
def r250 : Row Act := ⟨[], [(32, 32, tr26), (33, 126, st 251)], tr24, [.errProcid, .errParse]⟩
/-- rfc5424/machine.go:5551, end of input: line 11848 -/
def r251 : Row Act := ⟨[], [(32, 32, tr26), (33, 126, st 252)], tr24, [.errProcid, .errParse]⟩
/-- rfc5424/machine.go:5563, end of input: line 11848 -/
def r252 : Row Act := ⟨[], [(32, 32, tr26)], tr24, [.errProcid, .errParse]⟩
/-- rfc5424/machine.go:5572, end of input: line 11832 -/
def r253 : Row Act := ⟨[], [(32, 32, tr22), (33, 126, st 254)], tr20, [.errAppname, .errParse]⟩
/-- rfc5424/machine.go:5584, end of input: line 11832 -/
def r254 : Row Act := ⟨[], [(32, 32, tr22), (33, 126, st 255)], tr20, [.errAppname, .errParse]⟩
/-- rfc5424/machine.go:5596, end of input: line 11832 -/
def r255 : Row Act := ⟨[], [(32, 32, tr22), (33, 126, st 256)], tr20, [.errAppname, .errParse]⟩
/-- rfc5424/machine.go:5608, end of input: line 11832 -/
def r256 : Row Act := ⟨[], [(32, 32, tr22), (33, 126, st 257)], tr20, [.errAppname, .errParse]⟩
/-- rfc5424/machine.go:5620, end of input: line 11832 -/
def r257 : Row Act := ⟨[], [(32, 32, tr22), (33, 126, st 258)], tr20, [.errAppname, .errParse]⟩
/-- rfc5424/machine.go:5632, end of input: line 11832 -/
def r258 : Row Act := ⟨[], [(32, 32, tr22), (33, 126, st 259)], tr20, [.errAppname, .errParse]⟩
/-- rfc5424/machine.go:5644, end of input: line 11832 -/
def r259 : Row Act := ⟨[], [(32, 32, tr22), (33, 126, st 260)], tr20, [.errAppname, .errParse]⟩
/-- rfc5424/machine.go:5656, end of input: line 11832 -/
def r260 : Row Act := ⟨[], [(32, 32, tr22), (33, 126, st 261)], tr20, [.errAppname, .errParse]⟩
/-- rfc5424/machine.go:5668, end of input: line 11832 -/
def r261 : Row Act := ⟨[], [(32, 32, tr22), (33, 126, st 262)], tr20, [.errAppname, .errParse]⟩
/-- rfc5424/machine.go:5680, end of input: line 11832 -/
def r262 : Row Act := ⟨[], [(32, 32, tr22), (33, 126, st 263)], tr20, [.errAppname, .errParse]⟩
/-- rfc5424/machine.go:5692, end of input: line 11832 -/
def r263 : Row Act := ⟨[], [(32, 32, tr22), (33, 126, st 264)], tr20, [.errAppname, .errParse]⟩
/-- rfc5424/machine.go:5704, end of input: line 11832 -/
def r264 : Row Act := ⟨[], [(32, 32, tr22), (33, 126, st 265)], tr20, [.errAppname, .errParse]⟩
/-- rfc5424/machine.go:5716, end of input: line 11832 -/
def r265 : Row Act := ⟨[], [(32, 32, tr22), (33, 126, st 266)], tr20, [.errAppname, .errParse]⟩
/-- rfc5424/machine.go:5728, end of input: line 11832 -/
def r266 : Row Act := ⟨[], [(32, 32, tr22), (33, 126, st 267)], tr20, [.errAppname, .errParse]⟩
/-- rfc5424/machine.go:5740, end of input: line 11832 -/
def r267 : Row Act := ⟨[], [(32, 32, tr22), (33, 126, st 268)], tr20, [.errAppname, .errParse]⟩
/-- rfc5424/machine.go:5752, end of input: line 11832 -/
def r268 : Row Act := ⟨[], [(32, 32, tr22), (33, 126, st 269)], tr20, [.errAppname, .errParse]⟩
/-- rfc5424/machine.go:5764, end of input: line 11832 -/
def r269 : Row Act := ⟨[], [(32, 32, tr22), (33, 126, st 270)], tr20, [.errAppname, .errParse]⟩
/-- rfc5424/machine.go:5776, end of input: line 11832 -/
def r270 : Row Act := ⟨[], [(32, 32, tr22), (33, 126, st 271)], tr20, [.errAppname, .errParse]⟩
/-- rfc5424/machine.go:5788, end of input: line 11832 -/
def r271 : Row Act := ⟨[], [(32, 32, tr22), (33, 126, st 272)], tr20, [.errAppname, .errParse]⟩
/-- rfc5424/machine.go:5800, end of input: line 11832 -/
def r272 : Row Act := ⟨[], [(32, 32, tr22), (33, 126, st 273)], tr20, [.errAppname, .errParse]⟩
/-- rfc5424/machine.go:5812, end of input: line 11832 -/
def r273 : Row Act := ⟨[], [(32, 32, tr22), (33, 126, st 274)], tr20, [.errAppname, .errParse]⟩
/-- rfc5424/machine.go:5824, end of input: line 11832 -/
def r274 : Row Act := ⟨[], [(32, 32, tr22), (33, 126, st 275)], tr20, [.errAppname, .errParse]⟩
/-- rfc5424/machine.go:5836, end of input: line 11832 -/
def r275 : Row Act := ⟨[], [(32, 32, tr22), (33, 126, st 276)], tr20, [.errAppname, .errParse]⟩
/-- rfc5424/machine.go:5848, end of input: line 11832 -/
def r276 : Row Act := ⟨[], [(32, 32, tr22), (33, 126, st 277)], tr20, [.errAppname, .errParse]⟩
/-- rfc5424/machine.go:5860, end of input: line 11832 -/
def r277 : Row Act := ⟨[], [(32, 32, tr22), (33, 126, st 278)], tr20, [.errAppname, .errParse]⟩
/-- rfc5424/machine.go:5872, end of input: line 11832 -/
def r278 : Row Act := ⟨[], [(32, 32, tr22), (33, 126, st 279)], tr20, [.errAppname, .errParse]⟩
/-- rfc5424/machine.go:5884, end of input: line 11832 -/
def r279 : Row Act := ⟨[], [(32, 32, tr22), (33, 126, st 280)], tr20, [.errAppname, .errParse]⟩
/-- rfc5424/machine.go:5896, end of input: line 11832 -/
def r280 : Row Act := ⟨[], [(32, 32, tr22), (33, 126, st 281)], tr20, [.errAppname, .errParse]⟩
/-- rfc5424/machine.go:5908, end of input: line 11832 -/
def r281 : Row Act := ⟨[], [(32, 32, tr22), (33, 126, st 282)], tr20, [.errAppname, .errParse]⟩
/-- rfc5424/machine.go:5920, end of input: line 11832 -/
def r282 : Row Act := ⟨[], [(32, 32, tr22), (33, 126, st 283)], tr20, [.errAppname, .errParse]⟩
/-- rfc5424/machine.go:5932, end of input: line 11832 -/
def r283 : Row Act := ⟨[], [(32, 32, tr22), (33, 126, st 284)], tr20, [.errAppname, .errParse]⟩
/-- rfc5424/machine.go:5944, end of input: line 11832 -/
def r284 : Row Act := ⟨[], [(32, 32, tr22), (33, 126, st 285)], tr20, [.errAppname, .errParse]⟩
/-- rfc5424/machine.go:5956, end of input: line 11832 -/
def r285 : Row Act := ⟨[], [(32, 32, tr22), (33, 126, st 286)], tr20, [.errAppname, .errParse]⟩
/-- rfc5424/machine.go:5968, end of input: line 11832 -/
def r286 : Row Act := ⟨[], [(32, 32, tr22), (33, 126, st 287)], tr20, [.errAppname, .errParse]⟩
/-- rfc5424/machine.go:5980, end of input: line 11832 -/
def r287 : Row Act := ⟨[], [(32, 32, tr22), (33, 126, st 288)], tr20, [.errAppname, .errParse]⟩
/-- rfc5424/machine.go:5992, end of input: line 11832 -/
def r288 : Row Act := ⟨[], [(32, 32, tr22), (33, 126, st 289)], tr20, [.errAppname, .errParse]⟩
/-- rfc5424/machine.go:6004, end of input: line 11832 -/
def r289 : Row Act := ⟨[], [(32, 32, tr22), (33, 126, st 290)], tr20, [.errAppname, .errParse]⟩
/-- rfc5424/machine.go:6016, end of input: line 11832 -/
def r290 : Row Act := ⟨[], [(32, 32, tr22), (33, 126, st 291)], tr20, [.errAppname, .errParse]⟩
/-- rfc5424/machine.go:6028, end of input: line 11832 -/
def r291 : Row Act := ⟨[], [(32, 32, tr22), (33, 126, st 292)], tr20, [.errAppname, .errParse]⟩
/-- rfc5424/machine.go:6040, end of input: line 11832 -/
def r292 : Row Act := ⟨[], [(32, 32, tr22), (33, 126, st 293)], tr20, [.errAppname, .errParse]⟩
/-- rfc5424/machine.go:6052, end of input: line 11832 -/
def r293 : Row Act := ⟨[], [(32, 32, tr22), (33, 126, st 294)], tr20, [.errAppname, .errParse]⟩
/-- rfc5424/machine.go:6064, end of input: line 11832 -/
def r294 : Row Act := ⟨[], [(32, 32, tr22), (33, 126, st 295)], tr20, [.errAppname, .errParse]⟩
/-- rfc5424/machine.go:6076, end of input: line 11832 -/
def r295 : Row Act := ⟨[], [(32, 32, tr22), (33, 126, st 296)], tr20, [.errAppname, .errParse]⟩
/-- rfc5424/machine.go:6088, end of input: line 11832 -/
def r296 : Row Act := ⟨[], [(32, 32, tr22), (33, 126, st 297)], tr20, [.errAppname, .errParse]⟩
/-- rfc5424/machine.go:6100, end of input: line 11832 -/
def r297 : Row Act := ⟨[], [(32, 32, tr22), (33, 126, st 298)], tr20, [.errAppname, .errParse]⟩
/-- rfc5424/machine.go:6112, end of input: line 11832 -/
def r298 : Row Act := ⟨[], [(32, 32, tr22), (33, 126, st 299)], tr20, [.errAppname, .errParse]⟩
/-- rfc5424/machine.go:6124, end of input: line 11832 -/
def r299 : Row Act := ⟨[], [(32, 32, tr22)], tr20, [.errAppname, .errParse]⟩
/-- rfc5424/machine.go:6133, end of input: line 11816 -/
def r300 : Row Act := ⟨[], [(32, 32, tr18), (33, 126, st 301)], tr16, [.errHostname, .errParse]⟩
/-- rfc5424/machine.go:6145, end of input: line 11816 -/
def r301 : Row Act := ⟨[], [(32, 32, tr18), (33, 126, st 302)], tr16, [.errHostname, .errParse]⟩
/-- rfc5424/machine.go:6157, end of input: line 11816 -/
def r302 : Row Act := ⟨[], [(32, 32, tr18), (33, 126, st 303)], tr16, [.errHostname, .errParse]⟩
/-- rfc5424/machine.go:6169, end of input: line 11816 -/
def r303 : Row Act := ⟨[], [(32, 32, tr18), (33, 126, st 304)], tr16, [.errHostname, .errParse]⟩
/-- rfc5424/machine.go:6181, end of input: line 11816 -/
def r304 : Row Act := ⟨[], [(32, 32, tr18), (33, 126, st 305)], tr16, [.errHostname, .errParse]⟩
/-- rfc5424/machine.go:6193, end of input: line 11816 -/
def r305 : Row Act := ⟨[], [(32, 32, tr18), (33, 126, st 306)], tr16, [.errHostname, .errParse]⟩
/-- rfc5424/machine.go:6205, end of input: line 11816 -/
def r306 : Row Act := ⟨[], [(32, 32, tr18), (33, 126, st 307)], tr16, [.errHostname, .errParse]⟩
/-- rfc5424/machine.go:6217, end of input: line 11816 -/
def r307 : Row Act := ⟨[], [(32, 32, tr18), (33, 126, st 308)], tr16, [.errHostname, .errParse]⟩
/-- rfc5424/machine.go:6229, end of input: line 11816 -/
def r308 : Row Act := ⟨[], [(32, 32, tr18), (33, 126, st 309)], tr16, [.errHostname, .errParse]⟩
/-- rfc5424/machine.go:6241, end of input: line 11816 -/
def r309 : Row Act := ⟨[], [(32, 32, tr18), (33, 126, st 310)], tr16, [.errHostname, .errParse]⟩
/-- rfc5424/machine.go:6253, end of input: line 11816 -/
def r310 : Row Act := ⟨[], [(32, 32, tr18), (33, 126, st 311)], tr16, [.errHostname, .errParse]⟩
/-- rfc5424/machine.go:6265, end of input: line 11816 -/
def r311 : Row Act := ⟨[], [(32, 32, tr18), (33, 126, st 312)], tr16, [.errHostname, .errParse]⟩
/-- rfc5424/machine.go:6277, end of input: line 11816 -/
def r312 : Row Act := ⟨[], [(32, 32, tr18), (33, 126, st 313)], tr16, [.errHostname, .errParse]⟩
/-- rfc5424/machine.go:6289, end of input: line 11816 -/
def r313 : Row Act := ⟨[], [(32, 32, tr18), (33, 126, st 314)], tr16, [.errHostname, .errParse]⟩
/-- rfc5424/machine.go:6301, end of input: line 11816 -/
def r314 : Row Act := ⟨[], [(32, 32, tr18), (33, 126, st 315)], tr16, [.errHostname, .errParse]⟩
/-- rfc5424/machine.go:6313, end of input: line 11816 -/
def r315 : Row Act := ⟨[], [(32, 32, tr18), (33, 126, st 316)], tr16, [.errHostname, .errParse]⟩
/-- rfc5424/machine.go:6325, end of input: line 11816 -/
def r316 : Row Act := ⟨[], [(32, 32, tr18), (33, 126, st 317)], tr16, [.errHostname, .errParse]⟩
/-- rfc5424/machine.go:6337, end of input: line 11816 -/
def r317 : Row Act := ⟨[], [(32, 32, tr18), (33, 126, st 318)], tr16, [.errHostname, .errParse]⟩
/-- rfc5424/machine.go:6349, end of input: line 11816 -/
def r318 : Row Act := ⟨[], [(32, 32, tr18), (33, 126, st 319)], tr16, [.errHostname, .errParse]⟩
/-- rfc5424/machine.go:6361, end of input: line 11816 -/
def r319 : Row Act := ⟨[], [(32, 32, tr18), (33, 126, st 320)], tr16, [.errHostname, .errParse]⟩
/-- rfc5424/machine.go:6373, end of input: line 11816 -/
def r320 : Row Act := ⟨[], [(32, 32, tr18), (33, 126, st 321)], tr16, [.errHostname, .errParse]⟩
/-- rfc5424/machine.go:6385, end of input: line 11816 -/
def r321 : Row Act := ⟨[], [(32, 32, tr18), (33, 126, st 322)], tr16, [.errHostname, .errParse]⟩
/-- rfc5424/machine.go:6397, end of input: line 11816 -/
def r322 : Row Act := ⟨[], [(32, 32, tr18), (33, 126, st 323)], tr16, [.errHostname, .errParse]⟩
/-- rfc5424/machine.go:6409, end of input: line 11816 -/
def r323 : Row Act := ⟨[], [(32, 32, tr18), (33, 126, st 324)], tr16, [.errHostname, .errParse]⟩
/-- rfc5424/machine.go:6421, end of input: line 11816 -/
def r324 : Row Act := ⟨[], [(32, 32, tr18), (33, 126, st 325)], tr16, [.errHostname, .errParse]⟩
/-- rfc5424/machine.go:6433, end of input: line 11816 -/
def r325 : Row Act := ⟨[], [(32, 32, tr18), (33, 126, st 326)], tr16, [.errHostname, .errParse]⟩
/-- rfc5424/machine.go:6445, end of input: line 11816 -/
def r326 : Row Act := ⟨[], [(32, 32, tr18), (33, 126, st 327)], tr16, [.errHostname, .errParse]⟩
/-- rfc5424/machine.go:6457, end of input: line 11816 -/
def r327 : Row Act := ⟨[], [(32, 32, tr18), (33, 126, st 328)], tr16, [.errHostname, .errParse]⟩
/-- rfc5424/machine.go:6469, end of input: line 11816 -/
def r328 : Row Act := ⟨[], [(32, 32, tr18), (33, 126, st 329)], tr16, [.errHostname, .errParse]⟩
/-- rfc5424/machine.go:6481, end of input: line 11816 -/
def r329 : Row Act := ⟨[], [(32, 32, tr18), (33, 126, st 330)], tr16, [.errHostname, .errParse]⟩
/-- rfc5424/machine.go:6493, end of input: line 11816 -/
def r330 : Row Act := ⟨[], [(32, 32, tr18), (33, 126, st 331)], tr16, [.errHostname, .errParse]⟩
/-- rfc5424/machine.go:6505, end of input: line 11816 -/
def r331 : Row Act := ⟨[], [(32, 32, tr18), (33, 126, st 332)], tr16, [.errHostname, .errParse]⟩
/-- rfc5424/machine.go:6517, end of input: line 11816 -/
def r332 : Row Act := ⟨[], [(32, 32, tr18), (33, 126, st 333)], tr16, [.errHostname, .errParse]⟩
/-- rfc5424/machine.go:6529, end of input: line 11816 -/
def r333 : Row Act := ⟨[], [(32, 32, tr18), (33, 126, st 334)], tr16, [.errHostname, .errParse]⟩
/-- rfc5424/machine.go:6541, end of input: line 11816 -/
def r334 : Row Act := ⟨[], [(32, 32, tr18), (33, 126, st 335)], tr16, [.errHostname, .errParse]⟩
/-- rfc5424/machine.go:6553, end of input: line 11816 -/
def r335 : Row Act := ⟨[], [(32, 32, tr18), (33, 126, st 336)], tr16, [.errHostname, .errParse]⟩
/-- rfc5424/machine.go:6565, end of input: line 11816 -/
def r336 : Row Act := ⟨[], [(32, 32, tr18), (33, 126, st 337)], tr16, [.errHostname, .errParse]⟩
/-- rfc5424/machine.go:6577, end of input: line 11816 -/
def r337 : Row Act := ⟨[], [(32, 32, tr18), (33, 126, st 338)], tr16, [.errHostname, .errParse]⟩
/-- rfc5424/machine.go:6589, end of input: line 11816 -/
def r338 : Row Act := ⟨[], [(32, 32, tr18), (33, 126, st 339)], tr16, [.errHostname, .errParse]⟩
/-- rfc5424/machine.go:6601, end of input: line 11816 -/
def r339 : Row Act := ⟨[], [(32, 32, tr18), (33, 126, st 340)], tr16, [.errHostname, .errParse]⟩
/-- rfc5424/machine.go:6613, end of input: line 11816 -/
def r340 : Row Act := ⟨[], [(32, 32, tr18), (33, 126, st 341)], tr16, [.errHostname, .errParse]⟩
/-- rfc5424/machine.go:6625, end of input: line 11816 -/
def r341 : Row Act := ⟨[], [(32, 32, tr18), (33, 126, st 342)], tr16, [.errHostname, .errParse]⟩
/-- rfc5424/machine.go:6637, end of input: line 11816 -/
def r342 : Row Act := ⟨[], [(32, 32, tr18), (33, 126, st 343)], tr16, [.errHostname, .errParse]⟩
/-- rfc5424/machine.go:6649, end of input: line 11816 -/
def r343 : Row Act := ⟨[], [(32, 32, tr18), (33, 126, st 344)], tr16, [.errHostname, .errParse]⟩
/-- rfc5424/machine.go:6661, end of input: line 11816 -/
def r344 : Row Act := ⟨[], [(32, 32, tr18), (33, 126, st 345)], tr16, [.errHostname, .errParse]⟩
/-- rfc5424/machine.go:6673, end of input: line 11816 -/
def r345 : Row Act := ⟨[], [(32, 32, tr18), (33, 126, st 346)], tr16, [.errHostname, .errParse]⟩
/-- rfc5424/machine.go:6685, end of input: line 11816 -/
def r346 : Row Act := ⟨[], [(32, 32, tr18), (33, 126, st 347)], tr16, [.errHostname, .errParse]⟩
/-- rfc5424/machine.go:6697, end of input: line 11816 -/
def r347 : Row Act := ⟨[], [(32, 32, tr18), (33, 126, st 348)], tr16, [.errHostname, .errParse]⟩
/-- rfc5424/machine.go:6709, end of input: line 11816 -/
def r348 : Row Act := ⟨[], [(32, 32, tr18), (33, 126, st 349)], tr16, [.errHostname, .errParse]⟩
/-- rfc5424/machine.go:6721, end of input: line 11816 -/
def r349 : Row Act := ⟨[], [(32, 32, tr18), (33, 126, st 350)], tr16, [.errHostname, .errParse]⟩
/-- rfc5424/machine.go:6733, end of input: line 11816 -/
def r350 : Row Act := ⟨[], [(32, 32, tr18), (33, 126, st 351)], tr16, [.errHostname, .errParse]⟩
/-- rfc5424/machine.go:6745, end of input: line 11816 -/
def r351 : Row Act := ⟨[], [(32, 32, tr18), (33, 126, st 352)], tr16, [.errHostname, .errParse]⟩
/-- rfc5424/machine.go:6757, end of input: line 11816 -/
def r352 : Row Act := ⟨[], [(32, 32, tr18), (33, 126, st 353)], tr16, [.errHostname, .errParse]⟩
/-- rfc5424/machine.go:6769, end of input: line 11816 -/
def r353 : Row Act := ⟨[], [(32, 32, tr18), (33, 126, st 354)], tr16, [.errHostname, .errParse]⟩
/-- rfc5424/machine.go:6781, end of input: line 11816 -/
def r354 : Row Act := ⟨[], [(32, 32, tr18), (33, 126, st 355)], tr16, [.errHostname, .errParse]⟩
/-- rfc5424/machine.go:6793, end of input: line 11816 -/
def r355 : Row Act := ⟨[], [(32, 32, tr18), (33, 126, st 356)], tr16, [.errHostname, .errParse]⟩
/-- rfc5424/machine.go:6805, end of input: line 11816 -/
def r356 : Row Act := ⟨[], [(32, 32, tr18), (33, 126, st 357)], tr16, [.errHostname, .errParse]⟩
/-- rfc5424/machine.go:6817, end of input: line 11816 -/
def r357 : Row Act := ⟨[], [(32, 32, tr18), (33, 126, st 358)], tr16, [.errHostname, .errParse]⟩
/-- rfc5424/machine.go:6829, end of input: line 11816 -/
def r358 : Row Act := ⟨[], [(32, 32, tr18), (33, 126, st 359)], tr16, [.errHostname, .errParse]⟩
/-- rfc5424/machine.go:6841, end of input: line 11816 -/
def r359 : Row Act := ⟨[], [(32, 32, tr18), (33, 126, st 360)], tr16, [.errHostname, .errParse]⟩
/-- rfc5424/machine.go:6853, end of input: line 11816 -/
def r360 : Row Act := ⟨[], [(32, 32, tr18), (33, 126, st 361)], tr16, [.errHostname, .errParse]⟩
/-- rfc5424/machine.go:6865, end of input: line 11816 -/
def r361 : Row Act := ⟨[], [(32, 32, tr18), (33, 126, st 362)], tr16, [.errHostname, .errParse]⟩
/-- rfc5424/machine.go:6877, end of input: line 11816 -/
def r362 : Row Act := ⟨[], [(32, 32, tr18), (33, 126, st 363)], tr16, [.errHostname, .errParse]⟩
/-- rfc5424/machine.go:6889, end of input: line 11816 -/
def r363 : Row Act := ⟨[], [(32, 32, tr18), (33, 126, st 364)], tr16, [.errHostname, .errParse]⟩
/-- rfc5424/machine.go:6901, end of input: line 11816 -/
def r364 : Row Act := ⟨[], [(32, 32, tr18), (33, 126, st 365)], tr16, [.errHostname, .errParse]⟩
/-- rfc5424/machine.go:6913, end of input: line 11816 -/
def r365 : Row Act := ⟨[], [(32, 32, tr18), (33, 126, st 366)], tr16, [.errHostname, .errParse]⟩
/-- rfc5424/machine.go:6925, end of input: line 11816 -/
def r366 : Row Act := ⟨[], [(32, 32, tr18), (33, 126, st 367)], tr16, [.errHostname, .errParse]⟩
/-- rfc5424/machine.go:6937, end of input: line 11816 -/
def r367 : Row Act := ⟨[], [(32, 32, tr18), (33, 126, st 368)], tr16, [.errHostname, .errParse]⟩
/-- rfc5424/machine.go:6949, end of input: line 11816 -/
def r368 : Row Act := ⟨[], [(32, 32, tr18), (33, 126, st 369)], tr16, [.errHostname, .errParse]⟩
/-- rfc5424/machine.go:6961, end of input: line 11816 -/
def r369 : Row Act := ⟨[], [(32, 32, tr18), (33, 126, st 370)], tr16, [.errHostname, .errParse]⟩
/-- rfc5424/machine.go:6973, end of input: line 11816 -/
def r370 : Row Act := ⟨[], [(32, 32, tr18), (33, 126, st 371)], tr16, [.errHostname, .errParse]⟩
/-- rfc5424/machine.go:6985, end of input: line 11816 -/
def r371 : Row Act := ⟨[], [(32, 32, tr18), (33, 126, st 372)], tr16, [.errHostname, .errParse]⟩
/-- rfc5424/machine.go:6997, end of input: line 11816 -/
def r372 : Row Act := ⟨[], [(32, 32, tr18), (33, 126, st 373)], tr16, [.errHostname, .errParse]⟩
/-- rfc5424/machine.go:7009, end of input: line 11816 -/
def r373 : Row Act := ⟨[], [(32, 32, tr18), (33, 126, st 374)], tr16, [.errHostname, .errParse]⟩
/-- rfc5424/machine.go:7021, end of input: line 11816 -/
def r374 : Row Act := ⟨[], [(32, 32, tr18), (33, 126, st 375)], tr16, [.errHostname, .errParse]⟩
/-- rfc5424/machine.go:7033, end of input: line 11816 -/
def r375 : Row Act := ⟨[], [(32, 32, tr18), (33, 126, st 376)], tr16, [.errHostname, .errParse]⟩
/-- rfc5424/machine.go:7045, end of input: line 11816 -/
def r376 : Row Act := ⟨[], [(32, 32, tr18), (33, 126, st 377)], tr16, [.errHostname, .errParse]⟩
/-- rfc5424/machine.go:7057, end of input: line 11816 -/
def r377 : Row Act := ⟨[], [(32, 32, tr18), (33, 126, st 378)], tr16, [.errHostname, .errParse]⟩
/-- rfc5424/machine.go:7069, end of input: line 11816 -/
def r378 : Row Act := ⟨[], [(32, 32, tr18), (33, 126, st 379)], tr16, [.errHostname, .errParse]⟩
/-- rfc5424/machine.go:7081, end of input: line 11816 -/
def r379 : Row Act := ⟨[], [(32, 32, tr18), (33, 126, st 380)], tr16, [.errHostname, .errParse]⟩
/-- rfc5424/machine.go:7093, end of input: line 11816 -/
def r380 : Row Act := ⟨[], [(32, 32, tr18), (33, 126, st 381)], tr16, [.errHostname, .errParse]⟩
/-- rfc5424/machine.go:7105, end of input: line 11816 -/
def r381 : Row Act := ⟨[], [(32, 32, tr18), (33, 126, st 382)], tr16, [.errHostname, .errParse]⟩
/-- rfc5424/machine.go:7117, end of input: line 11816 -/
def r382 : Row Act := ⟨[], [(32, 32, tr18), (33, 126, st 383)], tr16, [.errHostname, .errParse]⟩
/-- rfc5424/machine.go:7129, end of input: line 11816 -/
def r383 : Row Act := ⟨[], [(32, 32, tr18), (33, 126, st 384)], tr16, [.errHostname, .errParse]⟩
/-- rfc5424/machine.go:7141, end of input: line 11816 -/
def r384 : Row Act := ⟨[], [(32, 32, tr18), (33, 126, st 385)], tr16, [.errHostname, .errParse]⟩
/-- rfc5424/machine.go:7153, end of input: line 11816 -/
def r385 : Row Act := ⟨[], [(32, 32, tr18), (33, 126, st 386)], tr16, [.errHostname, .errParse]⟩
/-- rfc5424/machine.go:7165, end of input: line 11816 -/
def r386 : Row Act := ⟨[], [(32, 32, tr18), (33, 126, st 387)], tr16, [.errHostname, .errParse]⟩
/-- rfc5424/machine.go:7177, end of input: line 11816 -/
def r387 : Row Act := ⟨[], [(32, 32, tr18), (33, 126, st 388)], tr16, [.errHostname, .errParse]⟩
/-- rfc5424/machine.go:7189, end of input: line 11816 -/
def r388 : Row Act := ⟨[], [(32, 32, tr18), (33, 126, st 389)], tr16, [.errHostname, .errParse]⟩
/-- rfc5424/machine.go:7201, end of input: line 11816 -/
def r389 : Row Act := ⟨[], [(32, 32, tr18), (33, 126, st 390)], tr16, [.errHostname, .errParse]⟩
/-- rfc5424/machine.go:7213, end of input: line 11816 -/
def r390 : Row Act := ⟨[], [(32, 32, tr18), (33, 126, st 391)], tr16, [.errHostname, .errParse]⟩
/-- rfc5424/machine.go:7225, end of input: line 11816 -/
def r391 : Row Act := ⟨[], [(32, 32, tr18), (33, 126, st 392)], tr16, [.errHostname, .errParse]⟩
/-- rfc5424/machine.go:7237, end of input: line 11816 -/
def r392 : Row Act := ⟨[], [(32, 32, tr18), (33, 126, st 393)], tr16, [.errHostname, .errParse]⟩
/-- rfc5424/machine.go:7249, end of input: line 11816 -/
def r393 : Row Act := ⟨[], [(32, 32, tr18), (33, 126, st 394)], tr16, [.errHostname, .errParse]⟩
/-- rfc5424/machine.go:7261, end of input: line 11816 -/
def r394 : Row Act := ⟨[], [(32, 32, tr18), (33, 126, st 395)], tr16, [.errHostname, .errParse]⟩
/-- rfc5424/machine.go:7273, end of input: line 11816 -/
def r395 : Row Act := ⟨[], [(32, 32, tr18), (33, 126, st 396)], tr16, [.errHostname, .errParse]⟩
/-- rfc5424/machine.go:7285, end of input: line 11816 -/
def r396 : Row Act := ⟨[], [(32, 32, tr18), (33, 126, st 397)], tr16, [.errHostname, .errParse]⟩
/-- rfc5424/machine.go:7297, end of input: line 11816 -/
def r397 : Row Act := ⟨[], [(32, 32, tr18), (33, 126, st 398)], tr16, [.errHostname, .errParse]⟩
/-- rfc5424/machine.go:7309, end of input: line 11816 -/
def r398 : Row Act := ⟨[], [(32, 32, tr18), (33, 126, st 399)], tr16, [.errHostname, .errParse]⟩
/-- rfc5424/machine.go:7321, end of input: line 11816 -/
def r399 : Row Act := ⟨[], [(32, 32, tr18), (33, 126, st 400)], tr16, [.errHostname, .errParse]⟩
/-- rfc5424/machine.go:7333, end of input: line 11816 -/
def r400 : Row Act := ⟨[], [(32, 32, tr18), (33, 126, st 401)], tr16, [.errHostname, .errParse]⟩
/-- rfc5424/machine.go:7345, end of input: line 11816 -/
def r401 : Row Act := ⟨[], [(32, 32, tr18), (33, 126, st 402)], tr16, [.errHostname, .errParse]⟩
/-- rfc5424/machine.go:7357, end of input: line 11816 -/
def r402 : Row Act := ⟨[], [(32, 32, tr18), (33, 126, st 403)], tr16, [.errHostname, .errParse]⟩
/-- rfc5424/machine.go:7369, end of input: line 11816 -/
def r403 : Row Act := ⟨[], [(32, 32, tr18), (33, 126, st 404)], tr16, [.errHostname, .errParse]⟩
/-- rfc5424/machine.go:7381, end of input: line 11816 -/
def r404 : Row Act := ⟨[], [(32, 32, tr18), (33, 126, st 405)], tr16, [.errHostname, .errParse]⟩
/-- rfc5424/machine.go:7393, end of input: line 11816 -/
def r405 : Row Act := ⟨[], [(32, 32, tr18), (33, 126, st 406)], tr16, [.errHostname, .errParse]⟩
/-- rfc5424/machine.go:7405, end of input: line 11816 -/
def r406 : Row Act := ⟨[], [(32, 32, tr18), (33, 126, st 407)], tr16, [.errHostname, .errParse]⟩
/-- rfc5424/machine.go:7417, end of input: line 11816 -/
def r407 : Row Act := ⟨[], [(32, 32, tr18), (33, 126, st 408)], tr16, [.errHostname, .errParse]⟩
/-- rfc5424/machine.go:7429, end of input: line 11816 -/
def r408 : Row Act := ⟨[], [(32, 32, tr18), (33, 126, st 409)], tr16, [.errHostname, .errParse]⟩
/-- rfc5424/machine.go:7441, end of input: line 11816 -/
def r409 : Row Act := ⟨[], [(32, 32, tr18), (33, 126, st 410)], tr16, [.errHostname, .errParse]⟩
/-- rfc5424/machine.go:7453, end of input: line 11816 -/
def r410 : Row Act := ⟨[], [(32, 32, tr18), (33, 126, st 411)], tr16, [.errHostname, .errParse]⟩
/-- rfc5424/machine.go:7465, end of input: line 11816 -/
def r411 : Row Act := ⟨[], [(32, 32, tr18), (33, 126, st 412)], tr16, [.errHostname, .errParse]⟩
/-- rfc5424/machine.go:7477, end of input: line 11816 -/
def r412 : Row Act := ⟨[], [(32, 32, tr18), (33, 126, st 413)], tr16, [.errHostname, .errParse]⟩
/-- rfc5424/machine.go:7489, end of input: line 11816 -/
def r413 : Row Act := ⟨[], [(32, 32, tr18), (33, 126, st 414)], tr16, [.errHostname, .errParse]⟩
/-- rfc5424/machine.go:7501, end of input: line 11816 -/
def r414 : Row Act := ⟨[], [(32, 32, tr18), (33, 126, st 415)], tr16, [.errHostname, .errParse]⟩
/-- rfc5424/machine.go:7513, end of input: line 11816 -/
def r415 : Row Act := ⟨[], [(32, 32, tr18), (33, 126, st 416)], tr16, [.errHostname, .errParse]⟩
/-- rfc5424/machine.go:7525, end of input: line 11816 -/
def r416 : Row Act := ⟨[], [(32, 32, tr18), (33, 126, st 417)], tr16, [.errHostname, .errParse]⟩
/-- rfc5424/machine.go:7537, end of input: line 11816 -/
def r417 : Row Act := ⟨[], [(32, 32, tr18), (33, 126, st 418)], tr16, [.errHostname, .errParse]⟩
/-- rfc5424/machine.go:7549, end of input: line 11816 -/
def r418 : Row Act := ⟨[], [(32, 32, tr18), (33, 126, st 419)], tr16, [.errHostname, .errParse]⟩
/-- rfc5424/machine.go:7561, end of input: line 11816 -/
def r419 : Row Act := ⟨[], [(32, 32, tr18), (33, 126, st 420)], tr16, [.errHostname, .errParse]⟩
/-- rfc5424/machine.go:7573, end of input: line 11816 -/
def r420 : Row Act := ⟨[], [(32, 32, tr18), (33, 126, st 421)], tr16, [.errHostname, .errParse]⟩
/-- rfc5424/machine.go:7585, end of input: line 11816 -/
def r421 : Row Act := ⟨[], [(32, 32, tr18), (33, 126, st 422)], tr16, [.errHostname, .errParse]⟩
/-- rfc5424/machine.go:7597, end of input: line 11816 -/
def r422 : Row Act := ⟨[], [(32, 32, tr18), (33, 126, st 423)], tr16, [.errHostname, .errParse]⟩
/-- rfc5424/machine.go:7609, end of input: line 11816 -/
def r423 : Row Act := ⟨[], [(32, 32, tr18), (33, 126, st 424)], tr16, [.errHostname, .errParse]⟩
/-- rfc5424/machine.go:7621, end of input: line 11816 -/
def r424 : Row Act := ⟨[], [(32, 32, tr18), (33, 126, st 425)], tr16, [.errHostname, .errParse]⟩
/-- rfc5424/machine.go:7633, end of input: line 11816 -/
def r425 : Row Act := ⟨[], [(32, 32, tr18), (33, 126, st 426)], tr16, [.errHostname, .errParse]⟩
/-- rfc5424/machine.go:7645, end of input: line 11816 -/
def r426 : Row Act := ⟨[], [(32, 32, tr18), (33, 126, st 427)], tr16, [.errHostname, .errParse]⟩
/-- rfc5424/machine.go:7657, end of input: line 11816 -/
def r427 : Row Act := ⟨[], [(32, 32, tr18), (33, 126, st 428)], tr16, [.errHostname, .errParse]⟩
/-- rfc5424/machine.go:7669, end of input: line 11816 -/
def r428 : Row Act := ⟨[], [(32, 32, tr18), (33, 126, st 429)], tr16, [.errHostname, .errParse]⟩
/-- rfc5424/machine.go:7681, end of input: line 11816 -/
def r429 : Row Act := ⟨[], [(32, 32, tr18), (33, 126, st 430)], tr16, [.errHostname, .errParse]⟩
/-- rfc5424/machine.go:7693, end of input: line 11816 -/
def r430 : Row Act := ⟨[], [(32, 32, tr18), (33, 126, st 431)], tr16, [.errHostname, .errParse]⟩
/-- rfc5424/machine.go:7705, end of input: line 11816 -/
def r431 : Row Act := ⟨[], [(32, 32, tr18), (33, 126, st 432)], tr16, [.errHostname, .errParse]⟩
/-- rfc5424/machine.go:7717, end of input: line 11816 -/
def r432 : Row Act := ⟨[], [(32, 32, tr18), (33, 126, st 433)], tr16, [.errHostname, .errParse]⟩
/-- rfc5424/machine.go:7729, end of input: line 11816 -/
def r433 : Row Act := ⟨[], [(32, 32, tr18), (33, 126, st 434)], tr16, [.errHostname, .errParse]⟩
/-- rfc5424/machine.go:7741, end of input: line 11816 -/
def r434 : Row Act := ⟨[], [(32, 32, tr18), (33, 126, st 435)], tr16, [.errHostname, .errParse]⟩
/-- rfc5424/machine.go:7753, end of input: line 11816 -/
def r435 : Row Act := ⟨[], [(32, 32, tr18), (33, 126, st 436)], tr16, [.errHostname, .errParse]⟩
/-- rfc5424/machine.go:7765, end of input: line 11816 -/
def r436 : Row Act := ⟨[], [(32, 32, tr18), (33, 126, st 437)], tr16, [.errHostname, .errParse]⟩
/-- rfc5424/machine.go:7777, end of input: line 11816 -/
def r437 : Row Act := ⟨[], [(32, 32, tr18), (33, 126, st 438)], tr16, [.errHostname, .errParse]⟩
/-- rfc5424/machine.go:7789, end of input: line 11816 -/
def r438 : Row Act := ⟨[], [(32, 32, tr18), (33, 126, st 439)], tr16, [.errHostname, .errParse]⟩
/-- rfc5424/machine.go:7801, end of input: line 11816 -/
def r439 : Row Act := ⟨[], [(32, 32, tr18), (33, 126, st 440)], tr16, [.errHostname, .errParse]⟩
/-- rfc5424/machine.go:7813, end of input: line 11816 -/
def r440 : Row Act := ⟨[], [(32, 32, tr18), (33, 126, st 441)], tr16, [.errHostname, .errParse]⟩
/-- rfc5424/machine.go:7825, end of input: line 11816 -/
def r441 : Row Act := ⟨[], [(32, 32, tr18), (33, 126, st 442)], tr16, [.errHostname, .errParse]⟩
/-- rfc5424/machine.go:7837, end of input: line 11816 -/
def r442 : Row Act := ⟨[], [(32, 32, tr18), (33, 126, st 443)], tr16, [.errHostname, .errParse]⟩
/-- rfc5424/machine.go:7849, end of input: line 11816 -/
def r443 : Row Act := ⟨[], [(32, 32, tr18), (33, 126, st 444)], tr16, [.errHostname, .errParse]⟩
/-- rfc5424/machine.go:7861, end of input: line 11816 -/
def r444 : Row Act := ⟨[], [(32, 32, tr18), (33, 126, st 445)], tr16, [.errHostname, .errParse]⟩
/-- rfc5424/machine.go:7873, end of input: line 11816 -/
def r445 : Row Act := ⟨[], [(32, 32, tr18), (33, 126, st 446)], tr16, [.errHostname, .errParse]⟩
/-- rfc5424/machine.go:7885, end of input: line 11816 -/
def r446 : Row Act := ⟨[], [(32, 32, tr18), (33, 126, st 447)], tr16, [.errHostname, .errParse]⟩
/-- rfc5424/machine.go:7897, end of input: line 11816 -/
def r447 : Row Act := ⟨[], [(32, 32, tr18), (33, 126, st 448)], tr16, [.errHostname, .errParse]⟩
/-- rfc5424/machine.go:7909, end of input: line 11816 -/
def r448 : Row Act := ⟨[], [(32, 32, tr18), (33, 126, st 449)], tr16, [.errHostname, .errParse]⟩
/-- rfc5424/machine.go:7921, end of input: line 11816 -/
def r449 : Row Act := ⟨[], [(32, 32, tr18), (33, 126, st 450)], tr16, [.errHostname, .errParse]⟩
/-- rfc5424/machine.go:7933, end of input: line 11816 -/
def r450 : Row Act := ⟨[], [(32, 32, tr18), (33, 126, st 451)], tr16, [.errHostname, .errParse]⟩
/-- rfc5424/machine.go:7945, end of input: line 11816 -/
def r451 : Row Act := ⟨[], [(32, 32, tr18), (33, 126, st 452)], tr16, [.errHostname, .errParse]⟩
/-- rfc5424/machine.go:7957, end of input: line 11816 -/
def r452 : Row Act := ⟨[], [(32, 32, tr18), (33, 126, st 453)], tr16, [.errHostname, .errParse]⟩
/-- rfc5424/machine.go:7969, end of input: line 11816 -/
def r453 : Row Act := ⟨[], [(32, 32, tr18), (33, 126, st 454)], tr16, [.errHostname, .errParse]⟩
/-- rfc5424/machine.go:7981, end of input: line 11816 -/
def r454 : Row Act := ⟨[], [(32, 32, tr18), (33, 126, st 455)], tr16, [.errHostname, .errParse]⟩
/-- rfc5424/machine.go:7993, end of input: line 11816 -/
def r455 : Row Act := ⟨[], [(32, 32, tr18), (33, 126, st 456)], tr16, [.errHostname, .errParse]⟩
/-- rfc5424/machine.go:8005, end of input: line 11816 -/
def r456 : Row Act := ⟨[], [(32, 32, tr18), (33, 126, st 457)], tr16, [.errHostname, .errParse]⟩
/-- rfc5424/machine.go:8017, end of input: line 11816 -/
def r457 : Row Act := ⟨[], [(32, 32, tr18), (33, 126, st 458)], tr16, [.errHostname, .errParse]⟩
/-- rfc5424/machine.go:8029, end of input: line 11816 -/
def r458 : Row Act := ⟨[], [(32, 32, tr18), (33, 126, st 459)], tr16, [.errHostname, .errParse]⟩
/-- rfc5424/machine.go:8041, end of input: line 11816 -/
def r459 : Row Act := ⟨[], [(32, 32, tr18), (33, 126, st 460)], tr16, [.errHostname, .errParse]⟩
/-- rfc5424/machine.go:8053, end of input: line 11816 -/
def r460 : Row Act := ⟨[], [(32, 32, tr18), (33, 126, st 461)], tr16, [.errHostname, .errParse]⟩
/-- rfc5424/machine.go:8065, end of input: line 11816 -/
def r461 : Row Act := ⟨[], [(32, 32, tr18), (33, 126, st 462)], tr16, [.errHostname, .errParse]⟩
/-- rfc5424/machine.go:8077, end of input: line 11816 -/
def r462 : Row Act := ⟨[], [(32, 32, tr18), (33, 126, st 463)], tr16, [.errHostname, .errParse]⟩
/-- rfc5424/machine.go:8089, end of input: line 11816 -/
def r463 : Row Act := ⟨[], [(32, 32, tr18), (33, 126, st 464)], tr16, [.errHostname, .errParse]⟩
/-- rfc5424/machine.go:8101, end of input: line 11816 -/
def r464 : Row Act := ⟨[], [(32, 32, tr18), (33, 126, st 465)], tr16, [.errHostname, .errParse]⟩
/-- rfc5424/machine.go:8113, end of input: line 11816 -/
def r465 : Row Act := ⟨[], [(32, 32, tr18), (33, 126, st 466)], tr16, [.errHostname, .errParse]⟩
/-- rfc5424/machine.go:8125, end of input: line 11816 -/
def r466 : Row Act := ⟨[], [(32, 32, tr18), (33, 126, st 467)], tr16, [.errHostname, .errParse]⟩
/-- rfc5424/machine.go:8137, end of input: line 11816 -/
def r467 : Row Act := ⟨[], [(32, 32, tr18), (33, 126, st 468)], tr16, [.errHostname, .errParse]⟩
/-- rfc5424/machine.go:8149, end of input: line 11816 -/
def r468 : Row Act := ⟨[], [(32, 32, tr18), (33, 126, st 469)], tr16, [.errHostname, .errParse]⟩
/-- rfc5424/machine.go:8161, end of input: line 11816 -/
def r469 : Row Act := ⟨[], [(32, 32, tr18), (33, 126, st 470)], tr16, [.errHostname, .errParse]⟩
/-- rfc5424/machine.go:8173, end of input: line 11816 -/
def r470 : Row Act := ⟨[], [(32, 32, tr18), (33, 126, st 471)], tr16, [.errHostname, .errParse]⟩
/-- rfc5424/machine.go:8185, end of input: line 11816 -/
def r471 : Row Act := ⟨[], [(32, 32, tr18), (33, 126, st 472)], tr16, [.errHostname, .errParse]⟩
/-- rfc5424/machine.go:8197, end of input: line 11816 -/
def r472 : Row Act := ⟨[], [(32, 32, tr18), (33, 126, st 473)], tr16, [.errHostname, .errParse]⟩
/-- rfc5424/machine.go:8209, end of input: line 11816 -/
def r473 : Row Act := ⟨[], [(32, 32, tr18), (33, 126, st 474)], tr16, [.errHostname, .errParse]⟩
/-- rfc5424/machine.go:8221, end of input: line 11816 -/
def r474 : Row Act := ⟨[], [(32, 32, tr18), (33, 126, st 475)], tr16, [.errHostname, .errParse]⟩
/-- rfc5424/machine.go:8233, end of input: line 11816 -/
def r475 : Row Act := ⟨[], [(32, 32, tr18), (33, 126, st 476)], tr16, [.errHostname, .errParse]⟩
/-- rfc5424/machine.go:8245, end of input: line 11816 -/
def r476 : Row Act := ⟨[], [(32, 32, tr18), (33, 126, st 477)], tr16, [.errHostname, .errParse]⟩
/-- rfc5424/machine.go:8257, end of input: line 11816 -/
def r477 : Row Act := ⟨[], [(32, 32, tr18), (33, 126, st 478)], tr16, [.errHostname, .errParse]⟩
/-- rfc5424/machine.go:8269, end of input: line 11816 -/
def r478 : Row Act := ⟨[], [(32, 32, tr18), (33, 126, st 479)], tr16, [.errHostname, .errParse]⟩
/-- rfc5424/machine.go:8281, end of input: line 11816 -/
def r479 : Row Act := ⟨[], [(32, 32, tr18), (33, 126, st 480)], tr16, [.errHostname, .errParse]⟩
/-- rfc5424/machine.go:8293, end of input: line 11816 -/
def r480 : Row Act := ⟨[], [(32, 32, tr18), (33, 126, st 481)], tr16, [.errHostname, .errParse]⟩
/-- rfc5424/machine.go:8305, end of input: line 11816 -/
def r481 : Row Act := ⟨[], [(32, 32, tr18), (33, 126, st 482)], tr16, [.errHostname, .errParse]⟩
/-- rfc5424/machine.go:8317, end of input: line 11816 -/
def r482 : Row Act := ⟨[], [(32, 32, tr18), (33, 126, st 483)], tr16, [.errHostname, .errParse]⟩
/-- rfc5424/machine.go:8329, end of input: line 11816 -/
def r483 : Row Act := ⟨[], [(32, 32, tr18), (33, 126, st 484)], tr16, [.errHostname, .errParse]⟩
/-- rfc5424/machine.go:8341, end of input: line 11816 -/
def r484 : Row Act := ⟨[], [(32, 32, tr18), (33, 126, st 485)], tr16, [.errHostname, .errParse]⟩
/-- rfc5424/machine.go:8353, end of input: line 11816 -/
def r485 : Row Act := ⟨[], [(32, 32, tr18), (33, 126, st 486)], tr16, [.errHostname, .errParse]⟩
/-- rfc5424/machine.go:8365, end of input: line 11816 -/
def r486 : Row Act := ⟨[], [(32, 32, tr18), (33, 126, st 487)], tr16, [.errHostname, .errParse]⟩
/-- rfc5424/machine.go:8377, end of input: line 11816 -/
def r487 : Row Act := ⟨[], [(32, 32, tr18), (33, 126, st 488)], tr16, [.errHostname, .errParse]⟩
/-- rfc5424/machine.go:8389, end of input: line 11816 -/
def r488 : Row Act := ⟨[], [(32, 32, tr18), (33, 126, st 489)], tr16, [.errHostname, .errParse]⟩
/-- rfc5424/machine.go:8401, end of input: line 11816 -/
def r489 : Row Act := ⟨[], [(32, 32, tr18), (33, 126, st 490)], tr16, [.errHostname, .errParse]⟩
/-- rfc5424/machine.go:8413, end of input: line 11816 -/
def r490 : Row Act := ⟨[], [(32, 32, tr18), (33, 126, st 491)], tr16, [.errHostname, .errParse]⟩
/-- rfc5424/machine.go:8425, end of input: line 11816 -/
def r491 : Row Act := ⟨[], [(32, 32, tr18), (33, 126, st 492)], tr16, [.errHostname, .errParse]⟩
/-- rfc5424/machine.go:8437, end of input: line 11816 -/
def r492 : Row Act := ⟨[], [(32, 32, tr18), (33, 126, st 493)], tr16, [.errHostname, .errParse]⟩
/-- rfc5424/machine.go:8449, end of input: line 11816 -/
def r493 : Row Act := ⟨[], [(32, 32, tr18), (33, 126, st 494)], tr16, [.errHostname, .errParse]⟩
/-- rfc5424/machine.go:8461, end of input: line 11816 -/
def r494 : Row Act := ⟨[], [(32, 32, tr18), (33, 126, st 495)], tr16, [.errHostname, .errParse]⟩
/-- rfc5424/machine.go:8473, end of input: line 11816 -/
def r495 : Row Act := ⟨[], [(32, 32, tr18), (33, 126, st 496)], tr16, [.errHostname, .errParse]⟩
/-- rfc5424/machine.go:8485, end of input: line 11816 -/
def r496 : Row Act := ⟨[], [(32, 32, tr18), (33, 126, st 497)], tr16, [.errHostname, .errParse]⟩
/-- rfc5424/machine.go:8497, end of input: line 11816 -/
def r497 : Row Act := ⟨[], [(32, 32, tr18), (33, 126, st 498)], tr16, [.errHostname, .errParse]⟩
/-- rfc5424/machine.go:8509, end of input: line 11816 -/
def r498 : Row Act := ⟨[], [(32, 32, tr18), (33, 126, st 499)], tr16, [.errHostname, .errParse]⟩
/-- rfc5424/machine.go:8521, end of input: line 11816 -/
def r499 : Row Act := ⟨[], [(32, 32, tr18), (33, 126, st 500)], tr16, [.errHostname, .errParse]⟩
/-- rfc5424/machine.go:8533, end of input: line 11816 -/
def r500 : Row Act := ⟨[], [(32, 32, tr18), (33, 126, st 501)], tr16, [.errHostname, .errParse]⟩
/-- rfc5424/machine.go:8545, end of input: line 11816 -/
def r501 : Row Act := ⟨[], [(32, 32, tr18), (33, 126, st 502)], tr16, [.errHostname, .errParse]⟩
/-- rfc5424/machine.go:8557, end of input: line 11816 -/
def r502 : Row Act := ⟨[], [(32, 32, tr18), (33, 126, st 503)], tr16, [.errHostname, .errParse]⟩
/-- rfc5424/machine.go:8569, end of input: line 11816 -/
def r503 : Row Act := ⟨[], [(32, 32, tr18), (33, 126, st 504)], tr16, [.errHostname, .errParse]⟩
/-- rfc5424/machine.go:8581, end of input: line 11816 -/
def r504 : Row Act := ⟨[], [(32, 32, tr18), (33, 126, st 505)], tr16, [.errHostname, .errParse]⟩
/-- rfc5424/machine.go:8593, end of input: line 11816 -/
def r505 : Row Act := ⟨[], [(32, 32, tr18), (33, 126, st 506)], tr16, [.errHostname, .errParse]⟩
/-- rfc5424/machine.go:8605, end of input: line 11816 -/
def r506 : Row Act := ⟨[], [(32, 32, tr18), (33, 126, st 507)], tr16, [.errHostname, .errParse]⟩
/-- rfc5424/machine.go:8617, end of input: line 11816 -/
def r507 : Row Act := ⟨[], [(32, 32, tr18), (33, 126, st 508)], tr16, [.errHostname, .errParse]⟩
/-- rfc5424/machine.go:8629, end of input: line 11816 -/
def r508 : Row Act := ⟨[], [(32, 32, tr18), (33, 126, st 509)], tr16, [.errHostname, .errParse]⟩
/-- rfc5424/machine.go:8641, end of input: line 11816 -/
def r509 : Row Act := ⟨[], [(32, 32, tr18), (33, 126, st 510)], tr16, [.errHostname, .errParse]⟩
/-- rfc5424/machine.go:8653, end of input: line 11816 -/
def r510 : Row Act := ⟨[], [(32, 32, tr18), (33, 126, st 511)], tr16, [.errHostname, .errParse]⟩
/-- rfc5424/machine.go:8665, end of input: line 11816 -/
def r511 : Row Act := ⟨[], [(32, 32, tr18), (33, 126, st 512)], tr16, [.errHostname, .errParse]⟩
/-- rfc5424/machine.go:8677, end of input: line 11816 -/
def r512 : Row Act := ⟨[], [(32, 32, tr18), (33, 126, st 513)], tr16, [.errHostname, .errParse]⟩
/-- rfc5424/machine.go:8689, end of input: line 11816 -/
def r513 : Row Act := ⟨[], [(32, 32, tr18), (33, 126, st 514)], tr16, [.errHostname, .errParse]⟩
/-- rfc5424/machine.go:8701, end of input: line 11816 -/
def r514 : Row Act := ⟨[], [(32, 32, tr18), (33, 126, st 515)], tr16, [.errHostname, .errParse]⟩
/-- rfc5424/machine.go:8713, end of input: line 11816 -/
def r515 : Row Act := ⟨[], [(32, 32, tr18), (33, 126, st 516)], tr16, [.errHostname, .errParse]⟩
/-- rfc5424/machine.go:8725, end of input: line 11816 -/
def r516 : Row Act := ⟨[], [(32, 32, tr18), (33, 126, st 517)], tr16, [.errHostname, .errParse]⟩
/-- rfc5424/machine.go:8737, end of input: line 11816 -/
def r517 : Row Act := ⟨[], [(32, 32, tr18), (33, 126, st 518)], tr16, [.errHostname, .errParse]⟩
/-- rfc5424/machine.go:8749, end of input: line 11816 -/
def r518 : Row Act := ⟨[], [(32, 32, tr18), (33, 126, st 519)], tr16, [.errHostname, .errParse]⟩
/-- rfc5424/machine.go:8761, end of input: line 11816 -/
def r519 : Row Act := ⟨[], [(32, 32, tr18), (33, 126, st 520)], tr16, [.errHostname, .errParse]⟩
/-- rfc5424/machine.go:8773, end of input: line 11816 -/
def r520 : Row Act := ⟨[], [(32, 32, tr18), (33, 126, st 521)], tr16, [.errHostname, .errParse]⟩
/-- rfc5424/machine.go:8785, end of input: line 11816 -/
def r521 : Row Act := ⟨[], [(32, 32, tr18), (33, 126, st 522)], tr16, [.errHostname, .errParse]⟩
/-- rfc5424/machine.go:8797, end of input: line 11816 -/
def r522 : Row Act := ⟨[], [(32, 32, tr18), (33, 126, st 523)], tr16, [.errHostname, .errParse]⟩
/-- rfc5424/machine.go:8809, end of input: line 11816 -/
def r523 : Row Act := ⟨[], [(32, 32, tr18), (33, 126, st 524)], tr16, [.errHostname, .errParse]⟩
/-- rfc5424/machine.go:8821, end of input: line 11816 -/
def r524 : Row Act := ⟨[], [(32, 32, tr18), (33, 126, st 525)], tr16, [.errHostname, .errParse]⟩
/-- rfc5424/machine.go:8833, end of input: line 11816 -/
def r525 : Row Act := ⟨[], [(32, 32, tr18), (33, 126, st 526)], tr16, [.errHostname, .errParse]⟩
/-- rfc5424/machine.go:8845, end of input: line 11816 -/
def r526 : Row Act := ⟨[], [(32, 32, tr18), (33, 126, st 527)], tr16, [.errHostname, .errParse]⟩
/-- rfc5424/machine.go:8857, end of input: line 11816 -/
def r527 : Row Act := ⟨[], [(32, 32, tr18), (33, 126, st 528)], tr16, [.errHostname, .errParse]⟩
/-- rfc5424/machine.go:8869, end of input: line 11816 -/
def r528 : Row Act := ⟨[], [(32, 32, tr18), (33, 126, st 529)], tr16, [.errHostname, .errParse]⟩
/-- rfc5424/machine.go:8881, end of input: line 11816 -/
def r529 : Row Act := ⟨[], [(32, 32, tr18), (33, 126, st 530)], tr16, [.errHostname, .errParse]⟩
/-- rfc5424/machine.go:8893, end of input: line 11816 -/
def r530 : Row Act := ⟨[], [(32, 32, tr18), (33, 126, st 531)], tr16, [.errHostname, .errParse]⟩
/-- rfc5424/machine.go:8905, end of input: line 11816 -/
def r531 : Row Act := ⟨[], [(32, 32, tr18), (33, 126, st 532)], tr16, [.errHostname, .errParse]⟩
/-- rfc5424/machine.go:8917, end of input: line 11816 -/
def r532 : Row Act := ⟨[], [(32, 32, tr18), (33, 126, st 533)], tr16, [.errHostname, .errParse]⟩
/-- rfc5424/machine.go:8929, end of input: line 11816 -/
def r533 : Row Act := ⟨[], [(32, 32, tr18), (33, 126, st 534)], tr16, [.errHostname, .errParse]⟩
/-- rfc5424/machine.go:8941, end of input: line 11816 -/
def r534 : Row Act := ⟨[], [(32, 32, tr18), (33, 126, st 535)], tr16, [.errHostname, .errParse]⟩
/-- rfc5424/machine.go:8953, end of input: line 11816 -/
def r535 : Row Act := ⟨[], [(32, 32, tr18), (33, 126, st 536)], tr16, [.errHostname, .errParse]⟩
/-- rfc5424/machine.go:8965, end of input: line 11816 -/
def r536 : Row Act := ⟨[], [(32, 32, tr18), (33, 126, st 537)], tr16, [.errHostname, .errParse]⟩
/-- rfc5424/machine.go:8977, end of input: line 11816 -/
def r537 : Row Act := ⟨[], [(32, 32, tr18), (33, 126, st 538)], tr16, [.errHostname, .errParse]⟩
/-- rfc5424/machine.go:8989, end of input: line 11816 -/
def r538 : Row Act := ⟨[], [(32, 32, tr18), (33, 126, st 539)], tr16, [.errHostname, .errParse]⟩
/-- rfc5424/machine.go:9001, end of input: line 11816 -/
def r539 : Row Act := ⟨[], [(32, 32, tr18), (33, 126, st 540)], tr16, [.errHostname, .errParse]⟩
/-- rfc5424/machine.go:9013, end of input: line 11816 -/
def r540 : Row Act := ⟨[], [(32, 32, tr18), (33, 126, st 541)], tr16, [.errHostname, .errParse]⟩
/-- rfc5424/machine.go:9025, end of input: line 11816 -/
def r541 : Row Act := ⟨[], [(32, 32, tr18), (33, 126, st 542)], tr16, [.errHostname, .errParse]⟩
/-- rfc5424/machine.go:9037, end of input: line 11816 -/
def r542 : Row Act := ⟨[], [(32, 32, tr18), (33, 126, st 543)], tr16, [.errHostname, .errParse]⟩
/-- rfc5424/machine.go:9049, end of input: line 11816 -/
def r543 : Row Act := ⟨[], [(32, 32, tr18), (33, 126, st 544)], tr16, [.errHostname, .errParse]⟩
/-- rfc5424/machine.go:9061, end of input: line 11816 -/
def r544 : Row Act := ⟨[], [(32, 32, tr18), (33, 126, st 545)], tr16, [.errHostname, .errParse]⟩
/-- rfc5424/machine.go:9073, end of input: line 11816 -/
def r545 : Row Act := ⟨[], [(32, 32, tr18), (33, 126, st 546)], tr16, [.errHostname, .errParse]⟩
/-- rfc5424/machine.go:9085, end of input: line 11816 -/
def r546 : Row Act := ⟨[], [(32, 32, tr18), (33, 126, st 547)], tr16, [.errHostname, .errParse]⟩
/-- rfc5424/machine.go:9097, end of input: line 11816 -/
def r547 : Row Act := ⟨[], [(32, 32, tr18), (33, 126, st 548)], tr16, [.errHostname, .errParse]⟩
/-- rfc5424/machine.go:9109, end of input: line 11816 -/
def r548 : Row Act := ⟨[], [(32, 32, tr18), (33, 126, st 549)], tr16, [.errHostname, .errParse]⟩
/-- rfc5424/machine.go:9121, end of input: line 11816 -/
def r549 : Row Act := ⟨[], [(32, 32, tr18), (33, 126, st 550)], tr16, [.errHostname, .errParse]⟩
/-- rfc5424/machine.go:9133, end of input: line 11816 -/
def r550 : Row Act := ⟨[], [(32, 32, tr18), (33, 126, st 551)], tr16, [.errHostname, .errParse]⟩
/-- rfc5424/machine.go:9145, end of input: line 11816 -/
def r551 : Row Act := ⟨[], [(32, 32, tr18), (33, 126, st 552)], tr16, [.errHostname, .errParse]⟩
/-- rfc5424/machine.go:9157, end of input: line 11816 -/
def r552 : Row Act := ⟨[], [(32, 32, tr18), (33, 126, st 553)], tr16, [.errHostname, .errParse]⟩
/-- rfc5424/machine.go:9169, end of input: line 11816 -/
def r553 : Row Act := ⟨[], [(32, 32, tr18)], tr16, [.errHostname, .errParse]⟩
/-- rfc5424/machine.go:9183, end of input: line 11800 -/
def r554 : Row Act := ⟨[], [(48, 57, st 555)], tr12, [.errTimestamp, .errParse]⟩
/-- rfc5424/machine.go:9192, end of input: line 11800 -/
def r555 : Row Act := ⟨[], [(48, 57, st 556)], tr12, [.errTimestamp, .errParse]⟩
/-- rfc5424/machine.go:9201, end of input: line 11800 -/
def r556 : Row Act := ⟨[], [(48, 57, st 557)], tr12, [.errTimestamp, .errParse]⟩
/-- rfc5424/machine.go:9210, end of input: line 11800 -/
def r557 : Row Act := ⟨[], [(45, 45, st 558)], tr12, [.errTimestamp, .errParse]⟩
/-- rfc5424/machine.go:9219, end of input: line 11800 -/
def r558 : Row Act := ⟨[], [(48, 48, st 559), (49, 49, st 590)], tr12, [.errTimestamp, .errParse]⟩
/-- rfc5424/machine.go:9231, end of input: line 11800 -/
def r559 : Row Act := ⟨[], [(49, 57, st 560)], tr12, [.errTimestamp, .errParse]⟩
/-- rfc5424/machine.go:9240, end of input: line 11800 -/
def r560 : Row Act := ⟨[], [(45, 45, st 561)], tr12, [.errTimestamp, .errParse]⟩
/-- rfc5424/machine.go:9249, end of input: line 11800 -/
def r561 : Row Act := ⟨[], [(48, 48, st 562), (49, 50, st 588), (51, 51, st 589)], tr12, [.errTimestamp, .errParse]⟩
/-- rfc5424/machine.go:9264, end of input: line 11800 -/
def r562 : Row Act := ⟨[], [(49, 57, st 563)], tr12, [.errTimestamp, .errParse]⟩
/-- rfc5424/machine.go:9273, end of input: line 11800 -/
def r563 : Row Act := ⟨[], [(84, 84, st 564)], tr12, [.errTimestamp, .errParse]⟩
/-- rfc5424/machine.go:9282, end of input: line 11800 -/
def r564 : Row Act := ⟨[], [(48, 49, st 565), (50, 50, st 587)], tr12, [.errTimestamp, .errParse]⟩
/-- rfc5424/machine.go:9294, end of input: line 11800 -/
def r565 : Row Act := ⟨[], [(48, 57, st 566)], tr12, [.errTimestamp, .errParse]⟩
/-- rfc5424/machine.go:9303, end of input: line 11800 -/
def r566 : Row Act := ⟨[], [(58, 58, st 567)], tr12, [.errTimestamp, .errParse]⟩
/-- rfc5424/machine.go:9312, end of input: line 11800 -/
def r567 : Row Act := ⟨[], [(48, 53, st 568)], tr12, [.errTimestamp, .errParse]⟩
/-- rfc5424/machine.go:9321, end of input: line 11800 -/
def r568 : Row Act := ⟨[], [(48, 57, st 569)], tr12, [.errTimestamp, .errParse]⟩
/-- rfc5424/machine.go:9330, end of input: line 11800 -/
def r569 : Row Act := ⟨[], [(58, 58, st 570)], tr12, [.errTimestamp, .errParse]⟩
/-- rfc5424/machine.go:9339, end of input: line 11800 -/
def r570 : Row Act := ⟨[], [(48, 53, st 571)], tr12, [.errTimestamp, .errParse]⟩
/-- rfc5424/machine.go:9348, end of input: line 11800 -/
def r571 : Row Act := ⟨[], [(48, 57, st 572)], tr12, [.errTimestamp, .errParse]⟩
/-- rfc5424/machine.go:9357, end of input: line 11800 -/
def r572 : Row Act := ⟨[], [(43, 43, st 573), (45, 45, st 573), (46, 46, st 580), (90, 90, st 578)], tr12, [.errTimestamp, .errParse]⟩
/-- rfc5424/machine.go:9373, end of input: line 11800 -/
def r573 : Row Act := ⟨[], [(48, 49, st 574), (50, 50, st 579)], tr12, [.errTimestamp, .errParse]⟩
/-- rfc5424/machine.go:9385, end of input: line 11800 -/
def r574 : Row Act := ⟨[], [(48, 57, st 575)], tr12, [.errTimestamp, .errParse]⟩
/-- rfc5424/machine.go:9394, end of input: line 11800 -/
def r575 : Row Act := ⟨[], [(58, 58, st 576)], tr12, [.errTimestamp, .errParse]⟩
/-- rfc5424/machine.go:9403, end of input: line 11800 -/
def r576 : Row Act := ⟨[], [(48, 53, st 577)], tr12, [.errTimestamp, .errParse]⟩
/-- rfc5424/machine.go:9412, end of input: line 11800 -/
def r577 : Row Act := ⟨[], [(48, 57, st 578)], tr12, [.errTimestamp, .errParse]⟩
/-- rfc5424/machine.go:9421, end of input: line 11763 -/
def r578 : Row Act := ⟨[], [(32, 32, tr616)], tr615, [.setTimestamp, .errParse]⟩
/-- rfc5424/machine.go:9430, end of input: line 11800 -/
def r579 : Row Act := ⟨[], [(48, 51, st 575)], tr12, [.errTimestamp, .errParse]⟩
/-- rfc5424/machine.go:9439, end of input: line 11800 -/
def r580 : Row Act := ⟨[], [(48, 57, st 581)], tr12, [.errTimestamp, .errParse]⟩
/-- rfc5424/machine.go:9448, end of input: line 11800 -/
def r581 : Row Act := ⟨[], [(43, 43, st 573), (45, 45, st 573), (48, 57, st 582), (90, 90, st 578)], tr12, [.errTimestamp, .errParse]⟩
/-- rfc5424/machine.go:9465, end of input: line 11800 -/
def r582 : Row Act := ⟨[], [(43, 43, st 573), (45, 45, st 573), (48, 57, st 583), (90, 90, st 578)], tr12, [.errTimestamp, .errParse]⟩
/-- rfc5424/machine.go:9482, end of input: line 11800 -/
def r583 : Row Act := ⟨[], [(43, 43, st 573), (45, 45, st 573), (48, 57, st 584), (90, 90, st 578)], tr12, [.errTimestamp, .errParse]⟩
/-- rfc5424/machine.go:9499, end of input: line 11800 -/
def r584 : Row Act := ⟨[], [(43, 43, st 573), (45, 45, st 573), (48, 57, st 585), (90, 90, st 578)], tr12, [.errTimestamp, .errParse]⟩
/-- rfc5424/machine.go:9516, end of input: line 11800 -/
def r585 : Row Act := ⟨[], [(43, 43, st 573), (45, 45, st 573), (48, 57, st 586), (90, 90, st 578)], tr12, [.errTimestamp, .errParse]⟩
/-- rfc5424/machine.go:9533, end of input: line 11800 -/
def r586 : Row Act := ⟨[], [(43, 43, st 573), (45, 45, st 573), (90, 90, st 578)], tr12, [.errTimestamp, .errParse]⟩
/-- rfc5424/machine.go:9547, end of input: line 11800 -/
def r587 : Row Act := ⟨[], [(48, 51, st 566)], tr12, [.errTimestamp, .errParse]⟩
/-- rfc5424/machine.go:9556, end of input: line 11800 -/
def r588 : Row Act := ⟨[], [(48, 57, st 563)], tr12, [.errTimestamp, .errParse]⟩
/-- rfc5424/machine.go:9565, end of input: line 11800 -/
def r589 : Row Act := ⟨[], [(48, 49, st 563)], tr12, [.errTimestamp, .errParse]⟩
/-- rfc5424/machine.go:9574, end of input: line 11800 -/
def r590 : Row Act := ⟨[], [(48, 50, st 560)], tr12, [.errTimestamp, .errParse]⟩
/-- rfc5424/machine.go:9583, end of input: line 11985 -/
def r591 : Row Act := ⟨[.setVersion], [(32, 32, st 6), (48, 57, st 592)], tr7, [.errVersion, .setVersion, .errParse]⟩
/-- rfc5424/machine.go:9598, end of input: line 11985 -/
def r592 : Row Act := ⟨[.setVersion], [(32, 32, st 6)], tr7, [.errVersion, .setVersion, .errParse]⟩
/-- rfc5424/machine.go:9615, end of input: line 11962 -/
def r593 : Row Act := ⟨[.setPrival], [(48, 56, st 594), (57, 57, st 595), (62, 62, st 4)], tr2, [.errPrival, .errPri, .errParse]⟩
/-- rfc5424/machine.go:9639, end of input: line 11962 -/
def r594 : Row Act := ⟨[.setPrival], [(48, 57, st 3), (62, 62, st 4)], tr2, [.errPrival, .errPri, .errParse]⟩
/-- rfc5424/machine.go:9655, end of input: line 11962 -/
def r595 : Row Act := ⟨[.setPrival], [(48, 49, st 3), (62, 62, st 4)], tr2, [.errPrival, .errPri, .errParse]⟩
/-- rfc5424/machine.go:9775, end of input: line 11723 -/
def r596 : Row Act := ⟨[], [(128, 191, st 613)], tr627, [.errMsg]⟩
/-- rfc5424/machine.go:9784, end of input: line 11723 -/
def r597 : Row Act := ⟨[], [(160, 191, st 596)], tr627, [.errMsg]⟩
/-- rfc5424/machine.go:9793, end of input: line 11723 -/
def r598 : Row Act := ⟨[], [(128, 191, st 596)], tr627, [.errMsg]⟩
/-- rfc5424/machine.go:9802, end of input: line 11723 -/
def r599 : Row Act := ⟨[], [(128, 159, st 596)], tr627, [.errMsg]⟩
/-- rfc5424/machine.go:9811, end of input: line 11723 -/
def r600 : Row Act := ⟨[], [(144, 191, st 598)], tr627, [.errMsg]⟩
/-- rfc5424/machine.go:9820, end of input: line 11723 -/
def r601 : Row Act := ⟨[], [(128, 191, st 598)], tr627, [.errMsg]⟩
/-- rfc5424/machine.go:9829, end of input: line 11723 -/
def r602 : Row Act := ⟨[], [(128, 143, st 598)], tr627, [.errMsg]⟩
/-- rfc5424/machine.go:1942 -/
def r603 : Row Act := ⟨[], [(32, 32, st 604)], tr9, []⟩
/-- rfc5424/machine.go:1951 -/
def r604 : Row Act := ⟨[], [], tr632, []⟩
/-- rfc5424/machine.go:1971 -/
def r605 : Row Act := ⟨[], [], tr9, []⟩
/-- rfc5424/machine.go:2876 -/
def r606 : Row Act := ⟨[], [(32, 32, st 604), (91, 91, st 17)], tr633, []⟩
/-- rfc5424/machine.go:9671, end of input: line 11919 -/
def r607 : Row Act := ⟨[], [], tr635, [.mark, .markmsg, .setMsg]⟩
/-- rfc5424/machine.go:9684, end of input: line 11692 -/
def r608 : Row Act := ⟨[], [], st 608, [.setMsg]⟩
/-- rfc5424/machine.go:9690, end of input: line 11919 -/
def r609 : Row Act := ⟨[], [(239, 239, tr638)], tr637, [.mark, .markmsg, .setMsg]⟩
/-- rfc5424/machine.go:9706, end of input: line 11692 -/
def r610 : Row Act := ⟨[], [], st 610, [.setMsg]⟩
/-- rfc5424/machine.go:9719, end of input: line 11692 -/
def r611 : Row Act := ⟨[], [(187, 187, st 612)], st 610, [.setMsg]⟩
/-- rfc5424/machine.go:9728, end of input: line 11692 -/
def r612 : Row Act := ⟨[], [(191, 191, st 613)], st 610, [.setMsg]⟩
/-- rfc5424/machine.go:9737, end of input: line 11692 -/
def r613 : Row Act := ⟨[], [(128, 193, tr627), (194, 223, st 596), (224, 224, st 597), (225, 236, st 598), (237, 237, st 599), (238, 239, st 598), (240, 240, st 600), (241, 243, st 601), (244, 244, st 602), (245, 255, tr627)], st 613, [.setMsg]⟩
/-- rfc5424/machine.go:9838 -/
def r614 : Row Act := ⟨[], [(10, 10, st 0), (13, 13, st 0)], st 614, []⟩

/-- The FSM, row `N` = `stCaseN`. -/
def table : List (Row Act) := [
  r0, r1, r2, r3, r4, r5, r6, r7, r8, r9, r10, r11,
  r12, r13, r14, r15, r16, r17, r18, r19, r20, r21, r22, r23,
  r24, r25, r26, r27, r28, r29, r30, r31, r32, r33, r34, r35,
  r36, r37, r38, r39, r40, r41, r42, r43, r44, r45, r46, r47,
  r48, r49, r50, r51, r52, r53, r54, r55, r56, r57, r58, r59,
  r60, r61, r62, r63, r64, r65, r66, r67, r68, r69, r70, r71,
  r72, r73, r74, r75, r76, r77, r78, r79, r80, r81, r82, r83,
  r84, r85, r86, r87, r88, r89, r90, r91, r92, r93, r94, r95,
  r96, r97, r98, r99, r100, r101, r102, r103, r104, r105, r106, r107,
  r108, r109, r110, r111, r112, r113, r114, r115, r116, r117, r118, r119,
  r120, r121, r122, r123, r124, r125, r126, r127, r128, r129, r130, r131,
  r132, r133, r134, r135, r136, r137, r138, r139, r140, r141, r142, r143,
  r144, r145, r146, r147, r148, r149, r150, r151, r152, r153, r154, r155,
  r156, r157, r158, r159, r160, r161, r162, r163, r164, r165, r166, r167,
  r168, r169, r170, r171, r172, r173, r174, r175, r176, r177, r178, r179,
  r180, r181, r182, r183, r184, r185, r186, r187, r188, r189, r190, r191,
  r192, r193, r194, r195, r196, r197, r198, r199, r200, r201, r202, r203,
  r204, r205, r206, r207, r208, r209, r210, r211, r212, r213, r214, r215,
  r216, r217, r218, r219, r220, r221, r222, r223, r224, r225, r226, r227,
  r228, r229, r230, r231, r232, r233, r234, r235, r236, r237, r238, r239,
  r240, r241, r242, r243, r244, r245, r246, r247, r248, r249, r250, r251,
  r252, r253, r254, r255, r256, r257, r258, r259, r260, r261, r262, r263,
  r264, r265, r266, r267, r268, r269, r270, r271, r272, r273, r274, r275,
  r276, r277, r278, r279, r280, r281, r282, r283, r284, r285, r286, r287,
  r288, r289, r290, r291, r292, r293, r294, r295, r296, r297, r298, r299,
  r300, r301, r302, r303, r304, r305, r306, r307, r308, r309, r310, r311,
  r312, r313, r314, r315, r316, r317, r318, r319, r320, r321, r322, r323,
  r324, r325, r326, r327, r328, r329, r330, r331, r332, r333, r334, r335,
  r336, r337, r338, r339, r340, r341, r342, r343, r344, r345, r346, r347,
  r348, r349, r350, r351, r352, r353, r354, r355, r356, r357, r358, r359,
  r360, r361, r362, r363, r364, r365, r366, r367, r368, r369, r370, r371,
  r372, r373, r374, r375, r376, r377, r378, r379, r380, r381, r382, r383,
  r384, r385, r386, r387, r388, r389, r390, r391, r392, r393, r394, r395,
  r396, r397, r398, r399, r400, r401, r402, r403, r404, r405, r406, r407,
  r408, r409, r410, r411, r412, r413, r414, r415, r416, r417, r418, r419,
  r420, r421, r422, r423, r424, r425, r426, r427, r428, r429, r430, r431,
  r432, r433, r434, r435, r436, r437, r438, r439, r440, r441, r442, r443,
  r444, r445, r446, r447, r448, r449, r450, r451, r452, r453, r454, r455,
  r456, r457, r458, r459, r460, r461, r462, r463, r464, r465, r466, r467,
  r468, r469, r470, r471, r472, r473, r474, r475, r476, r477, r478, r479,
  r480, r481, r482, r483, r484, r485, r486, r487, r488, r489, r490, r491,
  r492, r493, r494, r495, r496, r497, r498, r499, r500, r501, r502, r503,
  r504, r505, r506, r507, r508, r509, r510, r511, r512, r513, r514, r515,
  r516, r517, r518, r519, r520, r521, r522, r523, r524, r525, r526, r527,
  r528, r529, r530, r531, r532, r533, r534, r535, r536, r537, r538, r539,
  r540, r541, r542, r543, r544, r545, r546, r547, r548, r549, r550, r551,
  r552, r553, r554, r555, r556, r557, r558, r559, r560, r561, r562, r563,
  r564, r565, r566, r567, r568, r569, r570, r571, r572, r573, r574, r575,
  r576, r577, r578, r579, r580, r581, r582, r583, r584, r585, r586, r587,
  r588, r589, r590, r591, r592, r593, r594, r595, r596, r597, r598, r599,
  r600, r601, r602, r603, r604, r605, r606, r607, r608, r609, r610, r611,
  r612, r613, r614]

end Verif.Gen.Rfc5424
