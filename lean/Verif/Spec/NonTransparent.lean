import Verif.Base

/-!
# Specification of non-transparent framing (RFC 6587, 3.4.2)

Only byte strings: independent of the line splitter and of the automaton.
-/

namespace Verif.Spec

/-- no trailer directly followed by `<` -/
def NoFalseStart (t : UInt8) (m : Bytes) : Prop := ∀ a b, m ≠ a ++ t :: 60 :: b

/-- A message that non-transparent framing can carry: it starts with `<` and nowhere contains the trailer followed by `<`. -/
structure Framable (t : UInt8) (m : Bytes) : Prop where
  lt : m.head? = some 60
  inside : NoFalseStart t m

/-- `SYSLOG-MSG TRAILER` for each message -/
def framed (t : UInt8) (ms : List Bytes) : Bytes := ms.flatMap (· ++ [t])

/-- `s` is `w` up to the case of ASCII letters, where `w` is written in upper case -/
def CaseOf : Bytes → Bytes → Prop
  | [], [] => True
  | b :: s, c :: w => (b = c ∨ (65 ≤ c.toNat ∧ c.toNat ≤ 90 ∧ b.toNat = c.toNat + 32)) ∧ CaseOf s w
  | _, _ => False

end Verif.Spec
