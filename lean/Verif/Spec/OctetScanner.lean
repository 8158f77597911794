import Verif.Spec.OctetStream

/-!
# What the scanner of octet counting returns when it is used by itself

`octetcounting.NewScanner` and `Scan` are exported. The state of the scanner: the length that was announced last (0 if none is), and whether a space has come since
then, with no end of the stream and no other length in between.
-/

namespace Verif.Spec
open Verif.Octet (Token)

/-- One call of `Scan`, with a buffer of `size` bytes: announced length and space before, the bytes to come, the token, and the same three things afterwards. -/
inductive Scans (size : Nat) : Nat → Bool → Bytes → Token → Nat → Bool → Bytes → Prop
  /-- the end -/
  | eof {n : Nat} {r : Bool} : Scans size n r [] ⟨.EOF, []⟩ n false []
  /-- NUL is taken for the end; it is consumed -/
  | nul {n : Nat} {r : Bool} {x : Bytes} : Scans size n r (0 :: x) ⟨.EOF, []⟩ n false x
  | length {n : Nat} {r : Bool} {x w rest : Bytes} : LenText x w rest → Scans size n r x ⟨.MSGLEN, w⟩ (lenValue w) false rest
  | space {n : Nat} {r : Bool} {x : Bytes} : Scans size n r (32 :: x) ⟨.WS, [32]⟩ n true x
  /-- `<` after a space that followed a length: a message of that length -/
  | message {m rest : Bytes} : m.head? = some 60 → m.length < 2 ^ 63 → m.length ≤ size → Scans size m.length true (m ++ rest) ⟨.SYSLOGMSG, m⟩ 0 false rest
  /-- less than the message is there: the token has all of it, but nothing is consumed -/
  | short {n : Nat} {x : Bytes} : x.head? = some 60 → x.length < n → n < 2 ^ 63 → n ≤ size → Scans size n true x ⟨.EOF, x⟩ n true x
  /-- the message does not fit the buffer: nothing is consumed -/
  | full {n : Nat} {x : Bytes} : x.head? = some 60 → size < n → n < 2 ^ 63 → Scans size n true x ⟨.EOF, x.take size⟩ n true x
  /-- the length is negative as an `int`: nothing is consumed -/
  | negative {n : Nat} {x : Bytes} : x.head? = some 60 → 2 ^ 63 ≤ n → Scans size n true x ⟨.EOF, []⟩ n true x
  /-- anything else; announced length and space remain -/
  | other {n : Nat} {r : Bool} {b : UInt8} {x : Bytes} : ¬ Digit b → b ≠ 0 → b ≠ 32 → ¬ (b = 60 ∧ 0 < n ∧ r = true) → Scans size n r (b :: x) ⟨.ILLEGAL, [b]⟩ n r x

/-- as many calls of `Scan` as there are tokens -/
inductive Scanned (size : Nat) : Nat → Bool → Bytes → List Token → Prop
  | nil {n : Nat} {r : Bool} {x : Bytes} : Scanned size n r x []
  | cons {n n' : Nat} {r r' : Bool} {x x' : Bytes} {tok : Token} {toks : List Token} : Scans size n r x tok n' r' x' → Scanned size n' r' x' toks → Scanned size n r x (tok :: toks)

end Verif.Spec
