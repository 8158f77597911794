import Verif.Conformance.Basic

/-!
# The other tests: rfc5424/builder_test.go, octetcounting/tokens_test.go, common/functions_test.go, nontransparent/trailer_type_test.go
-/

namespace Verif.Conformance
open Verif.Builder (Call)
open Verif.Rfc5424 (SyslogMessage)

/-- `TestSetTimestamp` (builder_test.go:11-21); all calls are on the same message: the third value is refused (it does not "accept until valid",
as the comment of the test has it) and the timestamp is still that of the second call -/
example : (([[ascii "2003-10-11T22:14:15Z"], [ascii "2003-10-11T22:14:15Z", ascii "2003-10-11T22:14:15.000003Z"],
      [ascii "2003-10-11T22:14:15Z", ascii "2003-10-11T22:14:15.000003Z", ascii "2003-10-11T22:14:15.000003Z+02:00"]] : List (List Bytes)).map
      fun ss => (built (ss.map .timestamp)).timestamp) =
    [some ⟨2003, 10, 11, 22, 14, 15, 0, 0⟩, some ⟨2003, 10, 11, 22, 14, 15, 3000, 0⟩, some ⟨2003, 10, 11, 22, 14, 15, 3000, 0⟩] := by
  decide +kernel

/-- what a fresh message shows -/
example : (built [.timestamp (ascii "2003-10-11T22:14:15.000003Z+02:00")]).timestamp = none := by decide +kernel

/-- `TestFacilityAndSeverity` (builder_test.go:23-63) -/
def names (m : SyslogMessage) :=
  [m.facilityMessage, m.facilityLevel, m.severityMessage, m.severityLevel, m.severityShortLevel]
example : names {} = [none, none, none, none, none] := by decide +kernel
example : names (built [.priority 1]) =
    [some "kernel messages", some "kern", some "action must be taken immediately", some "alert", some "alert"] := by decide +kernel
example : names (built [.priority 1, .priority 120]) =
    [some "clock daemon messages", some "cron2", some "system is unusable", some "emergency", some "emerg"] := by decide +kernel
example : names (built [.priority 1, .priority 120, .priority 99]) =
    [some "NTP subsystem messages", some "ntp", some "error conditions", some "error", some "err"] := by decide +kernel
example : ([[.priority 1], [.priority 120], [.priority 99]].map fun cs => ((built cs).facility, (built cs).severity)) =
    [(some 0, some 1), (some 15, some 0), (some 12, some 3)] := by decide +kernel

/-- `TestSetNilTimestamp` to `TestSetImpossibleButSyntacticallyCorrectTimestamp` (builder_test.go:65-88) -/
example : ((ascii "-" :: ascii "2003-42-42T22:14:15Z" :: ascii "2003-09-31T22:14:15Z" ::
    (List.range 26).map fun k => (ascii "2003-11-02T23:12:46.012345").take (k + 1)).all fun s =>
      (built [.timestamp s]).timestamp == none) = true := by decide +kernel

/-- 21 letters, as in the tests -/
def abc : Bytes := ascii "abcdefghilmnopqrstuvz"

/-- `TestSetTooLongHostname`, `TestSetNilOrEmptyHostname` (builder_test.go:90-100) -/
example : ([(List.replicate 12 abc).flatten ++ ascii "abcX", ascii "-", []].all fun s => (built [.hostname s]).hostname == none) = true := by
  decide +kernel

/-- `TestSetHostname` (builder_test.go:102-113); here some of the lengths (C22 has all) -/
example : ([1, 2, 100, 254, 255].all fun k =>
    let s := ((List.replicate 12 abc).flatten ++ ascii "abc").take k
    (built [.hostname s]).hostname == some s) = true := by decide +kernel

/-- `TestSetAppname`, `TestSetProcID`, `TestSetMsgID` (builder_test.go:115-152) -/
example : ([1, 2, 47, 48].all fun k =>
    let s := (List.replicate 7 abc).flatten.take k
    (built [.appname s]).appname == some s) = true := by decide +kernel
example : ([1, 2, 127, 128].all fun k =>
    let s := (List.replicate 7 abc).flatten.take k
    (built [.procID s]).procID == some s) = true := by decide +kernel
example : ([1, 2, 31, 32].all fun k =>
    let s := (List.replicate 7 abc).flatten.take k
    (built [.msgID s]).msgID == some s) = true := by decide +kernel

/-- `TestSetSyntacticallyWrongHostnameAppnameProcIDMsgID` (builder_test.go:154-164) -/
example : ([ascii "white space not possible", [0]].all fun s =>
    built [.hostname s] == {} && built [.appname s] == {} && built [.procID s] == {} && built [.msgID s] == {}) = true := by decide +kernel

/-- `κόσμε` -/
def kosme : Bytes := [0xCE, 0xBA, 0xCF, 0x8C, 0xCF, 0x83, 0xCE, 0xBC, 0xCE, 0xB5]

/-- `TestSetMessage`, `TestSetEmptyMessage` (builder_test.go:166-176) -/
example : (built [.message kosme]).message = some kosme ∧ (built [.message []]).message = none := by decide +kernel

/-- `TestSetOutOfRangeVersion` to `TestSetPriority` (builder_test.go:190-220) -/
example : (built [.version 1000]).version = 0 ∧ (built [.version 1000, .version 0]).version = 0 ∧ (built [.priority 192]).priority = none ∧
    (built [.version 1]).version = 1 ∧ (built [.version 1, .version 999]).version = 999 ∧ (built [.priority 0]).priority = some 0 ∧
    (built [.priority 0, .priority 1]).priority = some 1 ∧ (built [.priority 0, .priority 1, .priority 191]).priority = some 191 := by
  decide +kernel

/-- `TestSetSDID`, `TestSetTooLongSDID`, `TestSetSyntacticallyWrongSDID`, `TestSetEmptySDID` (builder_test.go:222-281) -/
example : (built [.elementID (ascii "one"), .elementID (ascii "one")]).structuredData = some [(ascii "one", [])] := by decide +kernel
example : ([ascii "abcdefghilmnopqrstuvzabcdefghilmX", ascii "no whitespaces", ascii " ", ascii "\"", ascii "no\"", ascii "\"no", ascii "]",
    ascii "no]", ascii "]no", []].all fun s => (built [.elementID s]).structuredData == none) = true := by decide +kernel
/-- `TestSetAllLenghtsSDID` (builder_test.go:236-249) -/
example : ((built ((List.range 32).map fun k => .elementID ((List.replicate 2 abc).flatten.take (k + 1)))).structuredData.map List.length) =
    some 32 := by decide +kernel

/-- `TestSetSDParam` (builder_test.go:283-322); here in the state after all its calls. The last three values are refused by the automaton and
leave the parameters behind with the empty value, which the test does not look at. -/
def params1 : List Call := [.parameter (ascii "one") (ascii "pname") (ascii "pvalue"), .parameter (ascii "one") (ascii "pname1") kosme,
    .parameter (ascii "another") (ascii "pname1") kosme, .parameter (ascii "another") (ascii "pname") (ascii "pvalue"),
    .parameter (ascii "tre") (ascii "pname") (ascii "valid\\\\"), .parameter (ascii "tre") (ascii "pname1") (ascii "\\]valid"),
    .parameter (ascii "tre") (ascii "meta") (ascii "is\\\"valid")]
def params2 : List Call := [.parameter (ascii "tre") (ascii "pname") (ascii "is\\valid"), .parameter (ascii "tre") (ascii "pname1") (ascii "is]valid"),
    .parameter (ascii "tre") (ascii "meta") (ascii "is\"valid")]
def value (m : SyslogMessage) (id name : Bytes) : Option Bytes := m.structuredData.bind fun sd => (sd.find id).bind (·.find name)
example : (let m := built params1
    [value m (ascii "one") (ascii "pname"), value m (ascii "one") (ascii "pname1"), value m (ascii "another") (ascii "pname1"),
      value m (ascii "another") (ascii "pname"), value m (ascii "tre") (ascii "pname"), value m (ascii "tre") (ascii "pname1"),
      value m (ascii "tre") (ascii "meta")]) =
    [some (ascii "pvalue"), some kosme, some kosme, some (ascii "pvalue"), some (ascii "valid\\"), some (ascii "]valid"),
      some (ascii "is\"valid")] := by decide +kernel
example : ((built (params1 ++ params2)).structuredData.map fun sd => (sd.length, (sd.find (ascii "tre")).map List.length)) =
    some (3, some 3) := by decide +kernel

/-- `TestSetEmptySDParam` (builder_test.go:324-333) -/
example : (built [.parameter (ascii "id") (ascii "pn") []]).structuredData = some [(ascii "id", [(ascii "pn", [])])] := by decide +kernel

/-- one step of `TestSerialization` (builder_test.go:335-441): the text, and that the parser gives the message back -/
def serializes (cs : List Call) (text : Bytes) : Bool :=
  decide (Builder.string (built cs) = some text) && decide (Rfc5424.parse1 {} text = some ⟨some (built cs), none⟩)
def s1 : List Call := [.priority 1, .version 1]
def s2 : List Call := s1 ++ [.message (ascii "-")]
def s3 : List Call := s2 ++ [.parameter (ascii "mega") (ascii "x") (ascii "a"), .parameter (ascii "mega") (ascii "y") (ascii "b"),
    .parameter (ascii "mega") (ascii "z") (ascii "\\\" \\] \\\\"), .parameter (ascii "peta") (ascii "a") (ascii "name"),
    .parameter (ascii "giga") (ascii "1") [], .parameter (ascii "peta") (ascii "c") (ascii "nomen")]
def sd3 : Bytes := ascii " [giga 1=\"\"][mega x=\"a\" y=\"b\" z=\"\\\" \\] \\\\\"][peta a=\"name\" c=\"nomen\"] -"
example : serializes s1 (ascii "<1>1 - - - - - -") = true := by decide +kernel
example : serializes s2 (ascii "<1>1 - - - - - - -") = true := by decide +kernel
example : serializes s3 (ascii "<1>1 - - - - -" ++ sd3) = true := by decide +kernel
def s7 : List Call := s3 ++ [.hostname (ascii "host1"), .appname (ascii "su"), .procID (ascii "22"), .msgID (ascii "#1")]
example : serializes s7 (ascii "<1>1 - host1 su 22 #1" ++ sd3) = true := by decide +kernel
def s8 : List Call := s7 ++ [.timestamp (ascii "2002-10-22T16:33:15.000087+01:00")]
example : serializes s8 (ascii "<1>1 2002-10-22T16:33:15.000087+01:00 host1 su 22 #1" ++ sd3) = true := by decide +kernel
example : serializes (s8 ++ [.message kosme]) (ascii "<1>1 2002-10-22T16:33:15.000087+01:00 host1 su 22 #1" ++ sd3.dropLast ++ kosme) = true := by
  decide +kernel
example : Builder.string (built [.priority 192, .version 9999]) = none := by decide +kernel

/-- `TestTokenTypeString`, `TestTokenString` (octetcounting/tokens_test.go:10-20) -/
example : Texts.tokenTypeString 1000 = ascii "TokenType(1000)" ∧ Texts.tokenTypeString 0 = ascii "ILLEGAL" ∧
    Texts.tokenTypeString 2 = ascii "WS" ∧
    Texts.tokenString ⟨.SYSLOGMSG, ascii "<1>1 - - - - - -"⟩ = ascii "SYSLOGMSG(<1>1 - - - - - -)" := by decide +kernel

/-- common/functions_test.go:9-32 -/
example : Common.unsafeDec [49, 48, 49] = 101 ∧ Common.unsafeDec [48, 48, 50] = 2 ∧ Common.unsafeDec [10] = -(48 - 10) ∧
    Common.unsafeDec [49, 50, 51, 52, 53, 54, 55, 56, 57, 48] = 1234567890 := by decide +kernel

/-- nontransparent/trailer_type_test.go:15-80 (`encoding/json` hands the string over without its quotes) -/
example : [ascii "\"LF\"", ascii "LF", ascii "'LF'", ascii "lf"].map (NonTransparent.unmarshalText 0) =
    List.replicate 4 (NonTransparent.LF, true) := by decide +kernel
example : [ascii "\"NUL\"", ascii "NUL", ascii "'NUL'"].map (NonTransparent.unmarshalText 0) =
    List.replicate 3 (NonTransparent.NUL, true) := by decide +kernel
example : [ascii "wrong", ascii "UNK"].map (NonTransparent.unmarshalText 0) = List.replicate 2 (-1, false) := by decide +kernel
example : NonTransparent.TrailerType.marshalText (-2) = none ∧ NonTransparent.NUL.marshalText = some (ascii "NUL") := by decide +kernel

end Verif.Conformance
