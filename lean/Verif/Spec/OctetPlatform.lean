import Verif.Spec.OctetStream

/-!
# Specification: octet counting streams on any platform

Like `Spec.Emits`, for an `int` of any number of bits (Go has platforms with 32 and with 64), and for parsers of which the two modes differ:
`go` says whether parsing goes on after a wrong message, `be` whether partial messages are returned.
-/

namespace Verif.Spec
open Verif.Octet (Token TokenType Error Result)

/-- what is left of a number in an `int` of `bits` bits: the number with the same remainder modulo `2 ^ bits` that lies between
`- 2 ^ (bits - 1)` and `2 ^ (bits - 1) - 1` -/
def asIntOn (bits : Nat) (n : Nat) : Int := (n : Int).bmod (2 ^ bits)

/-- `x` begins with a length, a space, and a message `m` with as many bytes as an `int` holds of that length; a `<` follows the space -/
def FrameOn (bits : Nat) (max : Int) (x m rest : Bytes) : Prop :=
  ∃ w, LenText x w (32 :: (m ++ rest)) ∧ lenValue w ≠ 0 ∧ asIntOn bits (lenValue w) = m.length ∧ (m ++ rest).head? = some 60 ∧
    (m.length : Int) ≤ max

inductive EmitsOn (bits : Nat) (go be : Bool) (max : Int) : Bytes → List Result → Prop
  /-- no length -/
  | noLen {x : Bytes} {tok : Token} : Found x tok → tok.typ ≠ .MSGLEN → EmitsOn bits go be max x [⟨none, some (.notMsgLen tok)⟩]
  | tooLong {x w rest : Bytes} : LenText x w rest → asIntOn bits (lenValue w) > max →
      EmitsOn bits go be max x [⟨none, some (.tooLong (lenValue w) max)⟩]
  /-- no space after the length -/
  | noSpace {x w rest : Bytes} {tok : Token} : LenText x w rest → asIntOn bits (lenValue w) ≤ max → Found rest tok → tok.typ ≠ .WS →
      EmitsOn bits go be max x [⟨none, some (.notWS tok)⟩]
  /-- no message after the space -/
  | noMsg {x w rest : Bytes} {tok : Token} {n : Nat} : LenText x w (32 :: rest) → asIntOn bits (lenValue w) ≤ max → Found rest tok →
      (lenValue w = 0 ∨ rest.head? ≠ some 60) → n = (if tok.typ = .MSGLEN then lenValue tok.lit else lenValue w) →
      (go = false ∨ asIntOn bits n ≤ tok.lit.length) → EmitsOn bits go be max x [⟨none, some (.notMsg tok n)⟩]
  | noMsgBest {x w rest : Bytes} {tok : Token} {n : Nat} : LenText x w (32 :: rest) → asIntOn bits (lenValue w) ≤ max → Found rest tok →
      (lenValue w = 0 ∨ rest.head? ≠ some 60) → n = (if tok.typ = .MSGLEN then lenValue tok.lit else lenValue w) →
      go = true → (tok.lit.length : Int) < asIntOn bits n → EmitsOn bits go be max x [⟨none, some (.message ⟨.pri, 0⟩)⟩]
  /-- a length that is negative as an `int`: nothing is read -/
  | negative {x w rest : Bytes} : LenText x w (32 :: 60 :: rest) → asIntOn bits (lenValue w) < 0 → asIntOn bits (lenValue w) ≤ max →
      EmitsOn bits go be max x [⟨none, some (.notMsg ⟨.EOF, []⟩ (lenValue w))⟩]
  /-- the stream ends inside the message -/
  | short {x w rest : Bytes} : LenText x w (32 :: 60 :: rest) → ((60 :: rest).length : Int) < asIntOn bits (lenValue w) →
      asIntOn bits (lenValue w) ≤ max →
      EmitsOn bits go be max x [
        if go then ⟨(msgResult be (60 :: rest)).msg, some ((msgResult be (60 :: rest)).err.getD (.notMsg ⟨.EOF, 60 :: rest⟩ (lenValue w)))⟩
        else ⟨none, some (.notMsg ⟨.EOF, 60 :: rest⟩ (lenValue w))⟩]
  /-- the end at a wrong message -/
  | wrong {x m rest : Bytes} {e : Error} : FrameOn bits max x m rest → go = false → (msgResult be m).err = some e →
      EmitsOn bits go be max x [⟨none, some e⟩]
  /-- the last message; a NUL ends the stream -/
  | last {x m rest : Bytes} : FrameOn bits max x m rest → (go = true ∨ (msgResult be m).err = none) → (rest = [] ∨ rest.head? = some 0) →
      EmitsOn bits go be max x [msgResult be m]
  | more {x m rest : Bytes} {rs : List Result} : FrameOn bits max x m rest → (go = true ∨ (msgResult be m).err = none) →
      rest ≠ [] → rest.head? ≠ some 0 → EmitsOn bits go be max rest rs → EmitsOn bits go be max x (msgResult be m :: rs)

/-- somewhere in `x` the length `n` is read -/
inductive Announces (max : Int) : Bytes → Nat → Prop
  | here {x w rest : Bytes} : LenText x w rest → Announces max x (lenValue w)
  /-- a number where a message should be -/
  | instead {x w rest w' rest' : Bytes} : LenText x w (32 :: rest) → LenText rest w' rest' → Announces max x (lenValue w')
  | later {x m rest : Bytes} {n : Nat} : FrameAt max x m rest → Announces max rest n → Announces max x n

end Verif.Spec
