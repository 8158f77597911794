import Verif.Spec.Rfc5424

/-!
# Specification: texts that say the same (RFC 5424)
-/

namespace Verif.Spec

/-- the fraction of a second, padded with zeros to six digits -/
def padFrac (ds : List Nat) : List Nat := ds ++ List.replicate (6 - ds.length) 0

/-- The same date and clock, the same fraction up to trailing zeros, the same zone up to the spelling (`Z`, `+00:00` and `-00:00` are the same). -/
def SameStamp (s t : Stamp) : Prop :=
  s.year = t.year ∧ s.month = t.month ∧ s.day = t.day ∧ s.hour = t.hour ∧ s.min = t.min ∧ s.sec = t.sec ∧
  padFrac s.frac = padFrac t.frac ∧ (s.zone = t.zone ∨ s.zone.seconds = 0 ∧ t.zone.seconds = 0)

/-- the value of the last parameter of that name -/
def lastValue (name : Bytes) (ps : List Param) : Option Bytes := (ps.reverse.find? (fun p => p.name = name)).map Param.value

/-- Every element of `es` stands also in `fs`, with the same parameters up to their order and to values that are repeated later. -/
def SdWithin (es fs : List Elem) : Prop := ∀ e ∈ es, ∃ f ∈ fs, f.id = e.id ∧ ∀ name, lastValue name e.params = lastValue name f.params

/-- `p` and `q` say the same: they differ at most in the order of elements and parameters, in parameters whose name occurs again later in the
element, in the spelling of the timestamp, and in whether there is an empty MSG or none. -/
structure SaySame (p q : Parts) : Prop where
  pri : p.pri = q.pri
  version : p.version = q.version
  timestamp : (p.timestamp = none ∧ q.timestamp = none) ∨ ∃ s t, p.timestamp = some s ∧ q.timestamp = some t ∧ SameStamp s t
  hostname : p.hostname = q.hostname
  appname : p.appname = q.appname
  procID : p.procID = q.procID
  msgID : p.msgID = q.msgID
  sd : SdWithin p.sd q.sd
  sd' : SdWithin q.sd p.sd
  msg : p.msg.getD [] = q.msg.getD []

end Verif.Spec
