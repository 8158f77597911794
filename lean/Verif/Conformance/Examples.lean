import Verif.Conformance.Basic

/-!
# The outputs of the `Example` functions of the repository (rfc3164, rfc5424, octetcounting, nontransparent: example_test.go)
-/

namespace Verif.Conformance
open Verif.Rfc5424 (SyslogMessage)

/-- the message that `Parse` returns without error -/
def bsd (o : Rfc3164.Opts) (input : Bytes) : Option Base := (Rfc3164.parse1 o input).bind (·.msg)

/-- the result but for the timestamp, in the examples with `host app: Test` -/
def hostApp (t : GoTime.Time) : Base :=
  { facility := some 1, severity := some 5, priority := some 13, timestamp := some t, hostname := some (ascii "host"),
    appname := some (ascii "app"), message := some (ascii "Test") }

/-- `Example` (rfc3164/example_test.go:17-36) -/
example : bsd {} (ascii "<13>Dec  2 16:31:03 host app: Test") = some (hostApp ⟨0, 12, 2, 16, 31, 3, 0, 0⟩) := by decide +kernel
/-- `Example_currentyear` (rfc3164/example_test.go:38-57) -/
example : bsd { yyyy := 2021 } (ascii "<13>Dec  2 16:31:03 host app: Test") = some (hostApp ⟨2021, 12, 2, 16, 31, 3, 0, 0⟩) := by decide +kernel
/-- `Example_withtimezone` (rfc3164/example_test.go:59-79) -/
example : bsd { loc := some (GoTime.fixedZone 3600) } (ascii "<13>Jan 30 02:08:03 host app: Test") =
    some (hostApp ⟨0, 1, 30, 3, 8, 3, 0, 3600⟩) := by decide +kernel
/-- `Example_withlocaletimezone` (rfc3164/example_test.go:81-101): local mean time, 4 h 56 min 2 s west -/
example : bsd { timezone := some (GoTime.fixedZone (-17762)) }
    (ascii "<13>Nov 22 17:09:42 xxx kernel: [118479565.921459] EXT4-fs warning (device sda8): ext4_dx_add_entry:2006: Directory index full!") =
    some { facility := some 1, severity := some 5, priority := some 13, timestamp := some ⟨0, 11, 22, 17, 9, 42, 0, -17762⟩,
           hostname := some (ascii "xxx"), appname := some (ascii "kernel"),
           message := some (ascii "[118479565.921459] EXT4-fs warning (device sda8): ext4_dx_add_entry:2006: Directory index full!") } := by
  decide +kernel
/-- `Example_withtimezone_and_year` (rfc3164/example_test.go:103-123) -/
example : bsd { loc := some (GoTime.fixedZone (-18000)), yyyy := 1987 } (ascii "<13>Jan 30 02:08:03 host app: Test") =
    some (hostApp ⟨1987, 1, 29, 21, 8, 3, 0, -18000⟩) := by decide +kernel
/-- `Example_besteffort` (rfc3164/example_test.go:125-144) -/
example : bsd { bestEffort := true } (ascii "<13>Dec  2 16:31:03 -") =
    some { facility := some 1, severity := some 5, priority := some 13, timestamp := some ⟨0, 12, 2, 16, 31, 3, 0, 0⟩ } := by decide +kernel
/-- the result of the next two examples -/
def app23410 (t : GoTime.Time) : Base :=
  { facility := some 3, severity := some 4, priority := some 28, timestamp := some t, hostname := some (ascii "host"),
    appname := some (ascii "app"), procID := some (ascii "23410"), message := some (ascii "Test") }
/-- `Example_rfc3339timestamp` (rfc3164/example_test.go:146-165) -/
example : bsd { rfc3339 := true } (ascii "<28>2019-12-02T16:49:23+02:00 host app[23410]: Test") =
    some (app23410 ⟨2019, 12, 2, 16, 49, 23, 0, 7200⟩) := by decide +kernel
/-- `Example_stamp_also_when_rfc3339` (rfc3164/example_test.go:167-186) -/
example : bsd { yyyy := 2019, rfc3339 := true } (ascii "<28>Dec  2 16:49:23 host app[23410]: Test") =
    some (app23410 ⟨2019, 12, 2, 16, 49, 23, 0, 0⟩) := by decide +kernel

/-- `Example` (rfc5424/example_test.go:15-51) -/
example : Rfc5424.parse1 {} (ascii "<165>4 2018-10-11T22:14:15.003Z mymach.it e - 1 [ex@32473 iut=\"3\"] An application event log entry...") =
    some ⟨some { facility := some 20, severity := some 5, priority := some 165, timestamp := some ⟨2018, 10, 11, 22, 14, 15, 3000000, 0⟩,
                 hostname := some (ascii "mymach.it"), appname := some (ascii "e"), msgID := some (ascii "1"),
                 message := some (ascii "An application event log entry..."), version := 4,
                 structuredData := some [(ascii "ex@32473", [(ascii "iut", ascii "3")])] }, none⟩ := by decide +kernel
/-- `Example_besteffort` (rfc5424/example_test.go:53-76) -/
example : Rfc5424.parse1 { bestEffort := true } (ascii "<1>1 A - - - - - -") =
    some ⟨some { facility := some 0, severity := some 1, priority := some 1, version := 1 }, some ⟨.timestamp, 5⟩⟩ := by decide +kernel
/-- `Example_builder` (rfc5424/example_test.go:78-107) -/
example : (built [.timestamp (ascii "not a RFC3339MICRO timestamp")]).valid = false ∧
    (let m := built [.timestamp (ascii "not a RFC3339MICRO timestamp"), .priority 191, .version 1]
     m.valid = true ∧ m = { facility := some 23, severity := some 7, priority := some 191, version := 1 } ∧
     Builder.string m = some (ascii "<191>1 - - - - - -")) := by decide +kernel

/-- a message with priority and version only -/
def pv (p : UInt8) (v : UInt16) : SyslogMessage :=
  { facility := some (p / 8), severity := some (p % 8), priority := some p, version := v }
/-- `κόσμε`, the second letter with an accent of its own: 11 bytes -/
def kosme11 : Bytes := [0xCE, 0xBA, 0xE1, 0xBD, 0xB9, 0xCF, 0x83, 0xCE, 0xBC, 0xCE, 0xB5]

/-- `Example` (octetcounting/example_test.go:18-83) -/
example : octet true 8192
    (ascii "48 <1>1 2003-10-11T22:14:15.003Z host.local - - - -25 <3>1 - host.local - - - -38 <2>1 - host.local su - - - " ++ kosme11)
    [⟨some { pv 1 1 with timestamp := some ⟨2003, 10, 11, 22, 14, 15, 3000000, 0⟩, hostname := some (ascii "host.local") }, none⟩,
     ⟨some { pv 3 1 with hostname := some (ascii "host.local") }, none⟩,
     ⟨some { pv 2 1 with hostname := some (ascii "host.local"), appname := some (ascii "su"), message := some kosme11 }, none⟩] = true := by
  decide +kernel

/-- `Example_channel` (octetcounting/example_test.go:85-175): `io.Pipe` delivers the three writes one by one -/
example : ((Octet.newParser [.bestEffort]).parse
      [⟨ascii "16 <1>1 - - - - - -", false⟩, ⟨ascii "17 <2>12 A B C D E -", false⟩, ⟨ascii "16 <1>1", false⟩, ⟨[], true⟩]).map (·.1) =
    some [⟨some (pv 1 1), none⟩, ⟨some (pv 2 12), some (.message ⟨.timestamp, 6⟩)⟩, ⟨some (pv 1 1), some (.message ⟨.parse, 4⟩)⟩] := by
  decide +kernel

/-- `Example_withoutTrailerAtEnd` (nontransparent/example_test.go:13-43) -/
example : nontransparent false NonTransparent.LF (ascii "<1>1 2003-10-11T22:14:15.003Z host.local - - - - mex")
    [⟨some { pv 1 1 with timestamp := some ⟨2003, 10, 11, 22, 14, 15, 3000000, 0⟩, hostname := some (ascii "host.local"),
                          message := some (ascii "mex") }, some none⟩] = true := by decide +kernel
/-- `Example_bestEffortOnLastOne` (nontransparent/example_test.go:45-92) -/
example : nontransparent true NonTransparent.LF (ascii "<1>1 - - - - - - -\n<3>1\n")
    [⟨some { pv 1 1 with message := some (ascii "-") }, none⟩, ⟨some (pv 3 1), some (some (ascii "parsing error [col 4]"))⟩] = true := by
  decide +kernel
/-- `Example_intoChannelWithLF` (nontransparent/example_test.go:94-190) -/
example : nontransparent true NonTransparent.LF (ascii "<2>1 - - - - - - A\nB\n<1>1 -\n<1>1 - - - - - - A\nB\nC\nD\n")
    [⟨some { pv 2 1 with message := some (ascii "A\nB") }, none⟩, ⟨some (pv 1 1), some (some (ascii "parsing error [col 6]"))⟩,
     ⟨some { pv 1 1 with message := some (ascii "A\nB\nC\nD") }, none⟩] = true := by decide +kernel
/-- `Example_intoChannelWithNUL` (nontransparent/example_test.go:192-274) -/
example : nontransparent false NonTransparent.NUL
    (ascii "<2>1 - - - - - - A" ++ 0 :: ascii "B" ++ 0 :: ascii "<1>1 -" ++ 0 :: ascii "<1>1 - - - - - - A" ++ 0 :: ascii "B" ++ 0 :: ascii "C" ++
      0 :: ascii "D" ++ [0])
    [⟨some { pv 2 1 with message := some (ascii "A" ++ 0 :: ascii "B") }, none⟩, ⟨none, some (some (ascii "parsing error [col 6]"))⟩,
     ⟨some { pv 1 1 with message := some (ascii "A" ++ 0 :: ascii "B" ++ 0 :: ascii "C" ++ 0 :: ascii "D") }, none⟩] = true := by decide +kernel

end Verif.Conformance
