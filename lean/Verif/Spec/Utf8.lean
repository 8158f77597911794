import Verif.Bytes

/-!
# Specification: well-formed UTF-8 (RFC 3629, section 4, ABNF)

```
UTF8-octets = *( UTF8-char )
UTF8-1      = %x00-7F
UTF8-2      = %xC2-DF UTF8-tail
UTF8-3      = %xE0 %xA0-BF UTF8-tail / %xE1-EC 2( UTF8-tail ) /
              %xED %x80-9F UTF8-tail / %xEE-EF 2( UTF8-tail )
UTF8-4      = %xF0 %x90-BF 2( UTF8-tail ) / %xF1-F3 3( UTF8-tail ) /
              %xF4 %x80-8F 2( UTF8-tail )
UTF8-tail   = %x80-BF
```
-/

namespace Verif.Spec

/-- `lo ≤ b ≤ hi` -/
def btw (lo hi : Nat) (b : UInt8) : Prop := lo ≤ b.toNat ∧ b.toNat ≤ hi

instance (lo hi : Nat) (b : UInt8) : Decidable (btw lo hi b) := inferInstanceAs (Decidable (_ ∧ _))

abbrev tail : UInt8 → Prop := btw 0x80 0xBF

/-- One UTF8-char. -/
inductive Utf8Char : Bytes → Prop
  | u1 {a} : btw 0 0x7F a → Utf8Char [a]
  | u2 {a b} : btw 0xC2 0xDF a → tail b → Utf8Char [a, b]
  | u3e0 {a b c} : a.toNat = 0xE0 → btw 0xA0 0xBF b → tail c → Utf8Char [a, b, c]
  | u3 {a b c} : btw 0xE1 0xEC a ∨ btw 0xEE 0xEF a → tail b → tail c → Utf8Char [a, b, c]
  | u3ed {a b c} : a.toNat = 0xED → btw 0x80 0x9F b → tail c → Utf8Char [a, b, c]
  | u4f0 {a b c d} : a.toNat = 0xF0 → btw 0x90 0xBF b → tail c → tail d → Utf8Char [a, b, c, d]
  | u4 {a b c d} : btw 0xF1 0xF3 a → tail b → tail c → tail d → Utf8Char [a, b, c, d]
  | u4f4 {a b c d} : a.toNat = 0xF4 → btw 0x80 0x8F b → tail c → tail d → Utf8Char [a, b, c, d]

/-- UTF8-octets. -/
inductive Utf8 : Bytes → Prop
  | nil : Utf8 []
  | cons {c s} : Utf8Char c → Utf8 s → Utf8 (c ++ s)

end Verif.Spec
