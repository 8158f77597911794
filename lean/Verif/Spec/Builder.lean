import Verif.Spec.Rfc5424

/-! # Specification: vocabulary for messages assembled with the builder -/

namespace Verif.Spec
open Verif.Rfc5424 (SyslogMessage)

/-- the parameters of element `id` -/
def element (sm : SyslogMessage) (id : Bytes) : Option (SMap Bytes) := sm.structuredData.bind (·.find id)

/-- the value of parameter `name` of element `id` -/
def param (sm : SyslogMessage) (id name : Bytes) : Option Bytes := (element sm id).bind (·.find name)

/-- UTF-8 text of the character U+0000..U+00FF with code point `b` -/
def latin1 (b : UInt8) : Bytes :=
  if b.toNat < 128 then [b] else [UInt8.ofNat (0xC0 + b.toNat / 64), UInt8.ofNat (0x80 + b.toNat % 64)]

/-- `Mangled v w`: `w` is the UTF-8 text `v` with every character replaced by the character whose code point is the
first byte of its encoding (US-ASCII characters stay) -/
inductive Mangled : Bytes → Bytes → Prop
  | nil : Mangled [] []
  | cons {a : UInt8} {c s r : Bytes} : Utf8Char (a :: c) → Mangled s r → Mangled (a :: c ++ s) (latin1 a ++ r)

/-- texts of US-ASCII characters and `Ã` (C3 83) -/
inductive Stable : Bytes → Prop
  | nil : Stable []
  | ascii {a : UInt8} {s : Bytes} : a.toNat < 128 → Stable s → Stable (a :: s)
  | atilde {s : Bytes} : Stable s → Stable (0xC3 :: 0x83 :: s)

end Verif.Spec
