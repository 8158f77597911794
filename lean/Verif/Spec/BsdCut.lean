import Verif.Spec.Rfc3164Errors

/-!
# Specification: truncated messages (RFC 3164)

`p.render` is the text of the message `p`; `u` is a beginning of it (what arrived).
-/

namespace Verif.Spec.Bsd
open Verif.Spec
open Verif.Rfc3164 (ErrKind)

/-- `<PRI>TIMESTAMP ` -/
def Parts.upToTime (p : Parts) : Bytes := priText p.pri ++ p.time.render ++ [32]

/-- `<PRI>TIMESTAMP HOSTNAME ` -/
def Parts.upToHost (p : Parts) : Bytes := p.upToTime ++ p.host ++ [32]

/-- The error for a timestamp of which only `x` arrived, and nothing after it. -/
def timeError (w : When) (x : Bytes) : Option ErrKind :=
  match w with
  | .bsd s => if x = s.render then none else some .timestamp
  | .iso s => if x = [] then some .timestamp else if x.length < 19 ∨ x = s.render then none else some .rfc3339

/-- What best effort returns for a truncated message: `Cut tm p u err m`. The column is always the end of what arrived. -/
inductive Cut (tm : When → GoTime.Time) (p : Parts) (u : Bytes) : Option ErrKind → Option Base → Prop
  /-- at most one digit of PRI -/
  | start : u.length ≤ 2 → Cut tm p u (some (if u = [] then .pri else .prival)) none
  /-- several digits of PRI, but no `>`: the last of them is lost -/
  | pri {ds : Bytes} {k : Nat} : u = 60 :: ds → ds <+: dec p.pri → 2 ≤ ds.length → dec k = ds.dropLast →
      Cut tm p u (some .prival) (some (priOnly k))
  /-- in TIMESTAMP, or before the space after it -/
  | time {x : Bytes} : u = priText p.pri ++ x → x <+: p.time.render → Cut tm p u (timeError p.time x) (some (priOnly p.pri))
  /-- in HOSTNAME, or before the space after it -/
  | host {x : Bytes} : u = p.upToTime ++ x → x <+: p.host →
      Cut tm p u (some .hostname) (some { priOnly p.pri with timestamp := some (tm p.time) })
  /-- before MSG -/
  | noMsg : u = p.upToHost →
      Cut tm p u (some .tag) (some { priOnly p.pri with timestamp := some (tm p.time), hostname := given p.host })
  /-- in MSG, or at its end: what arrived is read as if it were the whole MSG -/
  | msg {w tag pid text : Bytes} : u = p.upToHost ++ w → w <+: p.msg → Reads w tag pid text →
      Cut tm p u none (some (({ p with msg := w, tag := tag, pid := pid, text := text } : Parts).toMessage (tm p.time)))
  /-- ... and this may be impossible, because of a control character -/
  | control {w tag pid : Bytes} : u = p.upToHost ++ w → w <+: p.msg → w ≠ [] → (∀ tag pid text, ¬ Reads w tag pid text) → Seen w tag pid →
      Cut tm p u none (some { priOnly p.pri with
        timestamp := some (tm p.time), hostname := given p.host, appname := given tag, procID := given pid })

end Verif.Spec.Bsd
