import Verif.Props.Rebuild

/-!
# C75: messages filled in by hand

The fields of `SyslogMessage` are exported, so a program can fill them in without the setters. `String` checks only the priority and
the version. These theorems say which hand-made messages survive `String` and `Parse`.

Specification: `Buildable` of `Verif.Spec.BuilderCalls`, `Stable` of `Verif.Spec.Builder`.
-/

namespace Verif.Props
open Verif.Spec Verif.Builder
open Verif.Rfc5424 (parse1 SyslogMessage SD)

/-- what the setters cannot make, `Parse` never returns -/
theorem returned_buildable {o : Rfc5424.Opts} {input : Bytes} {m : SyslogMessage} {err : Option Rfc5424.Err}
    (h : parse1 o input = some ⟨some m, err⟩) : Buildable m :=
  (C64_buildable_iff m {}).mp (C66_returned_can_be_built o input m err h {})

theorem buildable_built {m : SyslogMessage} (h : Buildable m) : Built m := by
  obtain ⟨calls, g', h⟩ := (C64_buildable_iff m {}).mpr h
  obtain ⟨m3, g3, h3, hb⟩ := runCalls_built calls {} {} built_empty
  rw [h, Option.some.injEq, Prod.mk.injEq] at h3
  exact h3.1 ▸ hb

/-- C75: for every message, however its fields were filled in, `String` and `Parse` give it back exactly when it is valid, the setters
could have made it and its parameter values are ones that printing leaves alone. -/
theorem C75_round_trip_iff (m : SyslogMessage) (outer : List Bytes) (inner : Bytes → List Bytes) (ho : IterationOrder m outer inner) (be : Bool) :
    (∃ text, stringWith outer inner m = some text ∧ parse1 ⟨be, false⟩ text = some ⟨some m, none⟩) ↔
      m.valid = true ∧ Buildable m ∧ ∀ id name v, param m id name = some v → Stable v := by
  constructor
  · rintro ⟨text, h1, h2⟩
    have hb := returned_buildable h2
    have hbuilt := buildable_built hb
    have hv := (C05_returned_valid _ _ _ _ h2).1
    refine ⟨hv, hb, (mangleMsg_eq_iff hbuilt).mp ?_⟩
    obtain ⟨text', h3, h4⟩ := parse_string hbuilt hv ho be false (by simp)
    rw [h1, Option.some.injEq] at h3
    subst h3
    rw [h2, Option.some.injEq, Rfc5424.Result.mk.injEq, Option.some.injEq] at h4
    exact h4.1.symm
  · rintro ⟨hv, hb, hs⟩
    have hbuilt := buildable_built hb
    obtain ⟨text, h3, h4⟩ := parse_string hbuilt hv ho be false (by simp)
    rw [(mangleMsg_eq_iff hbuilt).mpr hs] at h4
    exact ⟨text, h3, h4⟩

/-- C75: `String` then `Parse` is the identity on no message that the setters refuse to make: it fails, or it gives another message. -/
theorem C75_not_buildable (m : SyslogMessage) (hm : ¬ Buildable m) (outer : List Bytes) (inner : Bytes → List Bytes) (o : Rfc5424.Opts)
    (text : Bytes) (_ : stringWith outer inner m = some text) (r : SyslogMessage) (err : Option Rfc5424.Err)
    (hr : parse1 o text = some ⟨some r, err⟩) : r ≠ m := fun e => hm (e ▸ returned_buildable hr)

/-- a message with nothing but priority, version, timestamp and a hostname, which holds the rest of the text of `m` -/
def inHostname (m : SyslogMessage) (outer : List Bytes) (inner : Bytes → List Bytes) : SyslogMessage :=
  { priority := m.priority, facility := m.facility, severity := m.severity, version := m.version, timestamp := m.timestamp,
    hostname := some (m.hostname.getD [45] ++ 32 :: (m.appname.getD [45] ++ 32 :: (m.procID.getD [45] ++ 32 :: (m.msgID.getD [45] ++ 32 ::
      (textSD outer inner m.structuredData ++ textMsg m.message))))) }

/-- C75: `String` does not look at the fields, so whoever chooses the hostname of a hand-made message chooses the message: for every
message `m` with a text that the setters can make there is a hostname such that a valid message with this hostname, the priority, version
and timestamp of `m`, and nothing else, prints as a text that parses, without an error, as `m` (with ` - - - -` after its text). -/
theorem C75_hostname_forges (m : SyslogMessage) (hv : m.valid = true) (hb : Buildable m) (hs : ∀ id name v, param m id name = some v → Stable v)
    (w : Bytes) (hw : m.message = some w) (be : Bool) :
    ∃ (hostname : Bytes) (f : SyslogMessage),
      f = { priority := m.priority, facility := m.facility, severity := m.severity, version := m.version, timestamp := m.timestamp,
            hostname := some hostname } ∧ f.valid = true ∧
      ∃ text, string f = some text ∧
        parse1 ⟨be, false⟩ text = some ⟨some { m with message := some (w ++ ascii " - - - -") }, none⟩ := by
  have hb' : Buildable { m with message := some (w ++ ascii " - - - -") } :=
    ⟨hb.priority, hb.facility, hb.severity, hb.version, hb.timestamp, hb.hostname, hb.appname, hb.procID, hb.msgID, by simp [ascii], hb.sd⟩
  have ho : IterationOrder { m with message := some (w ++ ascii " - - - -") } (keys (m.structuredData.getD []))
      (fun id => keys (((m.structuredData.getD []).find id).getD [])) := by
    refine ⟨List.Perm.refl _, fun id ps h => ?_⟩
    have h' : (m.structuredData.getD []).find id = some ps := by rw [element_getD]; exact h
    simp only [h', Option.getD_some]
    exact List.Perm.refl _
  obtain ⟨text, h1, h2⟩ := (C75_round_trip_iff _ _ _ ho be).mpr ⟨hv, hb', hs⟩
  refine ⟨_, inHostname m (keys (m.structuredData.getD [])) (fun id => keys (((m.structuredData.getD []).find id).getD [])), rfl, hv, text, ?_, h2⟩
  rw [← h1]
  unfold string stringWith
  have hv' : (inHostname m (keys (m.structuredData.getD [])) (fun id => keys (((m.structuredData.getD []).find id).getD []))).valid = true := hv
  have hv'' : ({ m with message := some (w ++ ascii " - - - -") } : SyslogMessage).valid = true := hv
  rw [if_neg (by rw [hv']; decide), if_neg (by rw [hv'']; decide)]
  simp only [inHostname, hw]
  cases m.priority with
  | none => rfl
  | some pri =>
    simp [textSD, textMsg, ascii]

/-- a hand-made message: its hostname holds the rest of a header -/
def forged : SyslogMessage :=
  { priority := some 34, facility := some 4, severity := some 2, version := 1, hostname := some (ascii "h su - - - root"),
    appname := some (ascii "a") }

/-- an instance: whoever chooses this hostname has chosen another application name, and a text -/
example : ∃ r, parse1 ⟨false, false⟩ ((string forged).getD []) = some ⟨some r, none⟩ ∧
    (r.hostname = some (ascii "h") ∧ r.appname = some (ascii "su") ∧ r.message = some (ascii "root a - - -")) := ex_of (by decide +kernel)

/-- the structured data is an empty map: `String` prints a text that is no message -/
def emptyMap : SyslogMessage := { priority := some 34, facility := some 4, severity := some 2, version := 1, structuredData := some [] }

example : emptyMap.valid = true ∧ string emptyMap = some (ascii "<34>1 - - - - - ") ∧
    (parse1 ⟨false, false⟩ (ascii "<34>1 - - - - - ")).map (·.msg) = some none := by decide +kernel

/-- the hypotheses of the theorems are met: a message that comes back, one that does not -/
example : ∃ m : SyslogMessage, m.valid = true ∧ string m = some (ascii "<34>1 - h - - - - x") ∧
    parse1 ⟨false, false⟩ (ascii "<34>1 - h - - - - x") = some ⟨some m, none⟩ :=
  ⟨{ priority := some 34, facility := some 4, severity := some 2, version := 1, hostname := some (ascii "h"), message := some (ascii "x") },
    by decide +kernel, by decide +kernel, by decide +kernel⟩

example : ¬ Buildable { priority := some 34, facility := some 4, severity := some 2, version := 1, hostname := some (ascii "h su") } := by
  intro h
  exact absurd (h.hostname.1.2.2 32 (by decide)) (by decide)

end Verif.Props
