import Verif.Spec.Octet

/-!
# Specification: everything that comes out of an octet counting stream

`Emits be max x rs`: parsing the stream `x` in mode `be` (best effort) with maximal message length `max` passes exactly the results `rs` to
the listener. Independent of the scanner and of the reader; the tokens occur only as what error messages show.
-/

namespace Verif.Spec
open Verif.Octet (Token TokenType Error Result)

def Digit (b : UInt8) : Prop := 48 ≤ b.toNat ∧ b.toNat ≤ 57

/-- a digit, or the slash (which precedes `0` in ASCII and is taken for a digit, too) -/
def Digitish (b : UInt8) : Prop := 47 ≤ b.toNat ∧ b.toNat ≤ 57

instance (b : UInt8) : Decidable (Digit b) := inferInstanceAs (Decidable (_ ∧ _))
instance (b : UInt8) : Decidable (Digitish b) := inferInstanceAs (Decidable (_ ∧ _))

/-- the number that digits (and slashes) are taken for: up to the largest 64 bit number; 0 if a slash comes first -/
def lenValue (w : Bytes) : Nat :=
  if 2 ^ 64 ≤ numVal (w.takeWhile fun b => decide (Digit b)) then 2 ^ 64 - 1
  else if ∀ b ∈ w, Digit b then numVal w
  else 0

/-- a 64 bit number as an `int` -/
def asInt (n : Nat) : Int := if n < 2 ^ 63 then n else (n : Int) - 2 ^ 64

/-- `x` begins with a length, written `w`; `rest` follows it. A NUL that directly follows the length is skipped. -/
inductive LenText : Bytes → Bytes → Bytes → Prop
  | plain {c : UInt8} {w rest : Bytes} : Digit c → (∀ b ∈ w, Digitish b) → (∀ b t, rest = b :: t → b ≠ 0 ∧ ¬ Digitish b) →
      LenText (c :: (w ++ rest)) (c :: w) rest
  | nul {c : UInt8} {w rest : Bytes} : Digit c → (∀ b ∈ w, Digitish b) → LenText (c :: (w ++ 0 :: rest)) (c :: w) rest

/-- what is found at the start of `x` (as error messages name it) where no message can be -/
inductive Found : Bytes → Token → Prop
  | eof : Found [] ⟨.EOF, []⟩
  | nul {x : Bytes} : Found (0 :: x) ⟨.EOF, []⟩
  | space {x : Bytes} : Found (32 :: x) ⟨.WS, [32]⟩
  | len {x w rest : Bytes} : LenText x w rest → Found x ⟨.MSGLEN, w⟩
  | other {b : UInt8} {x : Bytes} : ¬ Digit b → b ≠ 0 → b ≠ 32 → Found (b :: x) ⟨.ILLEGAL, [b]⟩

/-- the result of the message `m` alone -/
def msgResult (be : Bool) (m : Bytes) : Result :=
  match Rfc5424.parse1 { bestEffort := be } m with
  | none => {}
  | some r => ⟨r.msg, r.err.map .message⟩

/-- `x` begins with a whole frame: a length, a space, and a message `m` of that length that starts with `<`; `rest` follows -/
def FrameAt (max : Int) (x m rest : Bytes) : Prop :=
  ∃ w, LenText x w (32 :: (m ++ rest)) ∧ lenValue w = m.length ∧ m.head? = some 60 ∧ m.length < 2 ^ 63 ∧ (m.length : Int) ≤ max

inductive Emits (be : Bool) (max : Int) : Bytes → List Result → Prop
  /-- no length -/
  | noLen {x : Bytes} {tok : Token} : Found x tok → tok.typ ≠ .MSGLEN → Emits be max x [⟨none, some (.notMsgLen tok)⟩]
  | tooLong {x w rest : Bytes} : LenText x w rest → asInt (lenValue w) > max →
      Emits be max x [⟨none, some (.tooLong (lenValue w) max)⟩]
  /-- no space after the length -/
  | noSpace {x w rest : Bytes} {tok : Token} : LenText x w rest → asInt (lenValue w) ≤ max → Found rest tok → tok.typ ≠ .WS →
      Emits be max x [⟨none, some (.notWS tok)⟩]
  /-- no message after the space, strict (and best effort, if no byte is missing). If there is a number in its place, the error speaks of
  that number. -/
  | noMsg {x w rest : Bytes} {tok : Token} {n : Nat} : LenText x w (32 :: rest) → asInt (lenValue w) ≤ max → Found rest tok →
      (lenValue w = 0 ∨ rest.head? ≠ some 60) → n = (if tok.typ = .MSGLEN then lenValue tok.lit else lenValue w) →
      (be = false ∨ asInt n ≤ tok.lit.length) → Emits be max x [⟨none, some (.notMsg tok n)⟩]
  /-- in best effort what is there is parsed, and it is not a message -/
  | noMsgBest {x w rest : Bytes} {tok : Token} {n : Nat} : LenText x w (32 :: rest) → asInt (lenValue w) ≤ max → Found rest tok →
      (lenValue w = 0 ∨ rest.head? ≠ some 60) → n = (if tok.typ = .MSGLEN then lenValue tok.lit else lenValue w) →
      be = true → (tok.lit.length : Int) < asInt n → Emits be max x [⟨none, some (.message ⟨.pri, 0⟩)⟩]
  /-- a length that is no `int`: nothing is read -/
  | huge {x w rest : Bytes} : LenText x w (32 :: 60 :: rest) → 2 ^ 63 ≤ lenValue w → asInt (lenValue w) ≤ max →
      Emits be max x [⟨none, some (.notMsg ⟨.EOF, []⟩ (lenValue w))⟩]
  /-- the stream ends inside the message -/
  | short {x w rest : Bytes} : LenText x w (32 :: 60 :: rest) → (60 :: rest).length < lenValue w → lenValue w < 2 ^ 63 →
      asInt (lenValue w) ≤ max →
      Emits be max x [
        if be then ⟨(msgResult be (60 :: rest)).msg, some ((msgResult be (60 :: rest)).err.getD (.notMsg ⟨.EOF, 60 :: rest⟩ (lenValue w)))⟩
        else ⟨none, some (.notMsg ⟨.EOF, 60 :: rest⟩ (lenValue w))⟩]
  /-- strict mode ends at a wrong message -/
  | wrong {x m rest : Bytes} {e : Error} : FrameAt max x m rest → be = false → (msgResult be m).err = some e →
      Emits be max x [⟨none, some e⟩]
  /-- the last message; a NUL ends the stream -/
  | last {x m rest : Bytes} : FrameAt max x m rest → (be = true ∨ (msgResult be m).err = none) → (rest = [] ∨ rest.head? = some 0) →
      Emits be max x [msgResult be m]
  | more {x m rest : Bytes} {rs : List Result} : FrameAt max x m rest → (be = true ∨ (msgResult be m).err = none) →
      rest ≠ [] → rest.head? ≠ some 0 → Emits be max rest rs → Emits be max x (msgResult be m :: rs)

/-- `x` ends inside the length of a frame (or right after it): whole frames, all of which are reported, and then nothing but the first bytes
of a length -/
inductive AtLength (be : Bool) (max : Int) : Bytes → Prop
  | here {c : UInt8} {w : Bytes} : Digit c → (∀ b ∈ w, Digitish b) → AtLength be max (c :: w)
  | more {x m rest : Bytes} : FrameAt max x m rest → (be = true ∨ (msgResult be m).err = none) → rest ≠ [] → rest.head? ≠ some 0 →
      AtLength be max rest → AtLength be max x

end Verif.Spec
