import Verif.Spec.Rfc5424Errors
import Verif.Spec.Builder

/-!
# Specification: truncated messages (RFC 5424)

`p.render` is the text of the message `p`; `u` is a beginning of it (what arrived).
-/

namespace Verif.Spec
open Verif.Rfc5424 (SyslogMessage ErrKind)

/-- Everything that the message `m` says is said by `p`. -/
structure Tells (p : Parts) (m : SyslogMessage) : Prop where
  priority : m.priority = some (UInt8.ofNat p.pri)
  facility : m.facility = some (UInt8.ofNat (p.pri / 8))
  severity : m.severity = some (UInt8.ofNat (p.pri % 8))
  /-- the number written by some of the leading digits of VERSION -/
  version : ∃ n, dec n <+: dec p.version ∧ m.version = UInt16.ofNat n
  timestamp : m.timestamp = none ∨ m.timestamp = p.timestamp.map Stamp.time
  hostname : m.hostname = none ∨ m.hostname = p.hostname
  appname : m.appname = none ∨ m.appname = p.appname
  procID : m.procID = none ∨ m.procID = p.procID
  msgID : m.msgID = none ∨ m.msgID = p.msgID
  /-- every parameter stands in the element of that id of `p` -/
  element : ∀ id ps, element m id = some ps → ∃ e ∈ p.sd, e.id = id ∧ ∀ name v, ps.find name = some v → ⟨name, v⟩ ∈ e.params
  /-- a beginning of the MSG -/
  message : ∀ w, m.message = some w → ∃ w', p.msg = some w' ∧ w <+: w'

/-- Which header fields `m` has: those that arrived with the space after them; for the timestamp the space is not needed. -/
structure Header (p : Parts) (u : Bytes) (m : SyslogMessage) : Prop where
  /-- VERSION arrived with the space after it -/
  version : p.lead 1 <+: u → m.version = UInt16.ofNat p.version
  /-- only some digits of VERSION arrived: if there are several, the last of them is lost -/
  digits : ∀ ds, u = p.lead 0 ++ ds → ds <+: dec p.version →
    ∃ n, dec n = (if ds.length = 1 then ds else ds.dropLast) ∧ m.version = UInt16.ofNat n
  timestamp : m.timestamp = if p.lead 1 ++ tsText p.timestamp <+: u then p.timestamp.map Stamp.time else none
  hostname : m.hostname = if p.lead 3 <+: u then p.hostname else none
  appname : m.appname = if p.lead 4 <+: u then p.appname else none
  procID : m.procID = if p.lead 5 <+: u then p.procID else none
  msgID : m.msgID = if p.lead 6 <+: u then p.msgID else none

/-- The partial message of a truncated message, by the place of the cut. -/
inductive Cut (co : Bool) (p : Parts) (u : Bytes) : Option SyslogMessage → Prop
  /-- before VERSION -/
  | pri : u <+: p.lead 0 → Cut co p u none
  /-- in VERSION, or before the space after it -/
  | version {n : Nat} : u = p.lead 0 ++ dec n → dec n <+: dec p.version →
      Cut co p u (some (({ p with version := if 10 ≤ n then n / 10 else n } : Parts).first 1))
  /-- in the field `k + 1`, or before the space after it -/
  | field {k : Nat} {x : Bytes} : 1 ≤ k → k ≤ 5 → u = p.lead k ++ x → ¬ p.lead (k + 1) <+: u →
      (k = 1 → p.timestamp ≠ none → ¬ p.lead 1 ++ tsText p.timestamp <+: u) → Cut co p u (some (p.first k))
  /-- right after TIMESTAMP -/
  | stamp : u = p.lead 1 ++ tsText p.timestamp → Cut co p u (some (p.first 2))
  /-- right before STRUCTURED-DATA -/
  | noSd : u = p.lead 6 → Cut co p u (some (p.first 6))
  /-- in an element `f` -/
  | element {es rest es' : List Elem} {f : Elem} {x : Bytes} {kind : ErrKind} {n : Nat} : p.sd = es ++ f :: rest →
      u = p.lead 6 ++ es.flatMap Elem.render ++ [91] ++ x → ¬ f.render <+: [91] ++ x → ElemStuck es x kind n es' →
      Cut co p u (some (p.withElems es'))
  /-- right after an element, or after the `-` in place of the elements -/
  | elements {es rest : List Elem} : p.sd = es ++ rest → (es = [] → rest = []) → u = p.lead 6 ++ sdText es → Cut co p u (some (p.withElems es))
  /-- in MSG, or at its end; `w'` is what is kept -/
  | msg {w w0 w' : Bytes} : p.msg = some w0 → w <+: w0 → u = p.lead 6 ++ sdText p.sd ++ [32] ++ w →
      ((co = true → MsgCompliant w) ∧ w' = w ∨
        co = true ∧ ¬ MsgCompliant w ∧ ∃ n, n ≤ w.length ∧ (∃ t, Utf8 (w.take n ++ t)) ∧ (n < w.length → ∀ t, ¬ Utf8 (w.take (n + 1) ++ t)) ∧ w' = w.take n) →
      Cut co p u (some ({ p with msg := some w' } : Parts).toMessage)

end Verif.Spec
