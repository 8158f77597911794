import Verif.Octet.Model
import Verif.CommonLemmas

/-!
# Specification of octet counting streams (RFC 5425, 4.3) and of readers

Independent of the scanner: byte strings and `Read` schedules only.
-/

namespace Verif.Spec
open Verif.Octet (Read)

/-- `MSG-LEN SP SYSLOG-MSG` -/
def octetFrame (m : Bytes) : Bytes := dec m.length ++ 32 :: m

/-- A reader whose successive `Read` calls deliver exactly these bytes, cut in any way, then report `io.EOF`: an
error comes only after all the bytes (possibly together with the last ones), and there are never 100 calls in a row
that return neither bytes nor an error. -/
structure Delivers (sched : List Read) (bytes : Bytes) : Prop where
  data : sched.flatMap Read.data = bytes
  errors : ∀ a r b, sched = a ++ r :: b → r.err = true → ∀ x ∈ b, x.data = []
  progress : ∀ a e b, sched = a ++ (e ++ b) → (∀ x ∈ e, x.data = [] ∧ x.err = false) → e.length < 100

/-- What the scanner takes for a frame: digits (leading zeros allowed), an optional NUL, a space, and as many bytes as
the digits say, the first of which is `<`. -/
structure LooseFrame where
  digits : Bytes
  nul : Bool
  msg : Bytes

def LooseFrame.text (f : LooseFrame) : Bytes := f.digits ++ ((if f.nul then [0] else []) ++ 32 :: f.msg)

structure LooseFrame.WF (max : Int) (f : LooseFrame) : Prop where
  nonempty : f.digits ≠ []
  digits : IsDigits f.digits
  len : numVal f.digits = f.msg.length
  lt : f.msg.head? = some 60
  max : (f.msg.length : Int) ≤ max
  int : f.msg.length < 2 ^ 63

end Verif.Spec
