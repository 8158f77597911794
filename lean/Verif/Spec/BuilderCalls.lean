import Verif.Builder.Model
import Verif.Spec.Builder
import Verif.Spec.Escape

/-! # Specification: what a chain of setter calls means, and which messages can be built -/

namespace Verif.Spec
open Verif.Rfc5424 (SyslogMessage)
open Verif.Builder (Call)

/-- `r` is what the last of the calls that set anything (in the sense of `P`) sets; `none` if there is none. -/
def LastBy {α : Type} (P : Call → α → Prop) (calls : List Call) : Option α → Prop
  | some a => ∃ pre c post, calls = pre ++ c :: post ∧ P c a ∧ ∀ d ∈ post, ∀ b, ¬ P d b
  | none => ∀ d ∈ calls, ∀ b, ¬ P d b

def SetsPriority (c : Call) (v : UInt8) : Prop := c = .priority v ∧ v.toNat ≤ 191
def SetsVersion (c : Call) (v : UInt16) : Prop := c = .version v ∧ 1 ≤ v.toNat ∧ v.toNat ≤ 999
def SetsTimestamp (c : Call) (t : GoTime.Time) : Prop := ∃ s : Stamp, s.WF ∧ s.Real ∧ c = .timestamp s.render ∧ t = s.time
def SetsHostname (c : Call) (w : Bytes) : Prop := c = .hostname w ∧ NameWF 255 w ∧ w ≠ [45]
def SetsAppname (c : Call) (w : Bytes) : Prop := c = .appname w ∧ NameWF 48 w ∧ w ≠ [45]
def SetsProcID (c : Call) (w : Bytes) : Prop := c = .procID w ∧ NameWF 128 w ∧ w ≠ [45]
def SetsMsgID (c : Call) (w : Bytes) : Prop := c = .msgID w ∧ NameWF 32 w ∧ w ≠ [45]
def SetsMessage (c : Call) (w : Bytes) : Prop := c = .message w ∧ w ≠ []

/-- the call makes sure that there is an element `id` -/
def MakesElement (id : Bytes) (c : Call) : Prop := SdNameWF id ∧ (c = .elementID id ∨ ∃ name value, c = .parameter id name value)

/-- the call gives the parameter `name` of element `id` the value `v`: the unescaped argument, or the empty string if the argument is not a
well-formed PARAM-VALUE -/
def SetsParam (id name : Bytes) (c : Call) (v : Bytes) : Prop :=
  SdNameWF id ∧ SdNameWF name ∧ ∃ raw, c = .parameter id name raw ∧
    ((Utf8 v ∧ Unescaped raw v) ∨ (¬ (∃ u, Utf8 u ∧ Unescaped raw u) ∧ v = []))

/-- `m` is what the chain of calls makes of a new message -/
structure Denotes (calls : List Call) (m : SyslogMessage) : Prop where
  priority : LastBy SetsPriority calls m.priority
  facility : m.facility = m.priority.map (· / 8)
  severity : m.severity = m.priority.map (· % 8)
  version : ∃ v, LastBy SetsVersion calls v ∧ m.version = v.getD 0
  timestamp : LastBy SetsTimestamp calls m.timestamp
  hostname : LastBy SetsHostname calls m.hostname
  appname : LastBy SetsAppname calls m.appname
  procID : LastBy SetsProcID calls m.procID
  msgID : LastBy SetsMsgID calls m.msgID
  message : LastBy SetsMessage calls m.message
  elements : ∀ id, (element m id).isSome ↔ ∃ c ∈ calls, MakesElement id c
  params : ∀ id name, LastBy (SetsParam id name) calls (param m id name)

/-- The messages that some chain of setter calls makes. Maps are represented by their entries in the order of the keys (`Sorted`). -/
structure Buildable (m : SyslogMessage) : Prop where
  priority : ∀ v, m.priority = some v → v.toNat ≤ 191
  facility : m.facility = m.priority.map (· / 8)
  severity : m.severity = m.priority.map (· % 8)
  version : m.version.toNat ≤ 999
  timestamp : ∀ t, m.timestamp = some t → ∃ s : Stamp, s.WF ∧ s.Real ∧ s.time = t
  hostname : FieldWF 255 m.hostname
  appname : FieldWF 48 m.appname
  procID : FieldWF 128 m.procID
  msgID : FieldWF 32 m.msgID
  message : m.message ≠ some []
  sd : ∀ sd, m.structuredData = some sd → sd ≠ [] ∧ sd.Sorted ∧
    ∀ e ∈ sd, SdNameWF e.1 ∧ e.2.Sorted ∧ ∀ p ∈ e.2, SdNameWF p.1 ∧ Utf8 p.2

end Verif.Spec
