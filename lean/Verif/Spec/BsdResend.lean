import Verif.Spec.Rfc3164

/-!
# Specification: sending an RFC 3164 message on

RFC 3164 messages have no `String` in the library; a relay writes the fields in the usual format itself.
-/

namespace Verif.Spec.Bsd
open Verif.Spec

/-- the MSG part a relay writes: `tag[pid]: text`, `tag: text` or `text`; the tag of a message that has a pid only is written `-` -/
def bodyText (tag pid : Option Bytes) (text : Bytes) : Bytes :=
  match tag, pid with
  | none, none => text
  | some t, none => t ++ ascii ": " ++ text
  | t, some p => t.getD (ascii "-") ++ ascii "[" ++ p ++ ascii "]: " ++ text

/-- `<PRI>Mmm dd hh:mm:ss HOSTNAME MSG`, with `-` for an absent hostname; `none` if priority, timestamp or text are missing -/
def sendAgain (m : Base) : Option Bytes :=
  match m.priority, m.timestamp, m.message with
  | some pri, some t, some text =>
    some (60 :: (dec pri.toNat ++ 62 :: ((⟨t.month, t.day, t.hour, t.min, t.sec⟩ : BStamp).render ++
      32 :: (m.hostname.getD (ascii "-") ++ 32 :: bodyText m.appname m.procID text))))
  | _, _, _ => none

/-- The text does not begin with a tag and `:` or `[`, or it is one of those that are read as text in spite of it: `-[` and `-:` not followed by
a space and more. -/
def SafeAlone (text : Bytes) : Prop :=
  (∀ tag r, TagWF tag → text ≠ tag ++ 58 :: r ∧ text ≠ tag ++ 91 :: r) ∨ text = ascii "-[" ∨
  ∃ r, text = ascii "-:" ++ r ∧ ∀ x, x ≠ [] → r ≠ 32 :: x

end Verif.Spec.Bsd
