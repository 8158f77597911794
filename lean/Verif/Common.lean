import Verif.Bytes

/-!
# `common/functions.go`
-/

namespace Verif.Common

/-- The loop of `UnsafeUTF8DecimalCodePointsToInt` (common/functions.go:8-17) on the characters not yet
visited, last character first; Go's `int` is 64 bits wide and wraps. -/
def unsafeDecLoop : Bytes → BitVec 64 → BitVec 64 → BitVec 64
  | [], out, _ => out
  | c :: cs, out, ord => unsafeDecLoop cs (out + (BitVec.ofNat 64 c.toNat - 48#64) * ord) (ord * 10#64)

/-- `UnsafeUTF8DecimalCodePointsToInt` (common/functions.go:8-17). -/
def unsafeDec (chars : Bytes) : BitVec 64 := unsafeDecLoop chars.reverse 0#64 1#64

/-- The conversion `uint8(int)` (truncation). -/
def toU8 (v : BitVec 64) : UInt8 := UInt8.ofNat v.toNat

/-- The conversion `uint16(int)` (truncation). -/
def toU16 (v : BitVec 64) : UInt16 := UInt16.ofNat v.toNat

/-- The loop of `RemoveBytes` (common/functions.go:23-26); `i` is the loop index; `none` is the Go panic
"slice bounds out of range" of `cp[:at]` / `cp[at+1:]`. Simplification: Go allows `at+1` up to `cap(cp)`... the
expression `cp[(at+1):]` is bounded by `len(cp)`, and `cp[:at]` by `cap(cp)`; requiring `at + 1 ≤ len(cp)` for both is
the conjunction of the two checks. -/
def removeBytesLoop : List Int → Int → Int → Bytes → Option Bytes
  | [], _, _, cp => some cp
  | pos :: ps, i, offset, cp =>
    if 0 ≤ pos - i - offset ∧ pos - i - offset + 1 ≤ cp.length then
      removeBytesLoop ps (i + 1) offset
        (cp.take (pos - i - offset).toNat ++ cp.drop ((pos - i - offset).toNat + 1))
    else none

/-- `RemoveBytes` (common/functions.go:20-28). -/
def removeBytes (data : Bytes) (positions : List Int) (offset : Int) : Option Bytes :=
  removeBytesLoop positions 0 offset data

/-- Continuation byte `80-BF`. -/
def isCont (b : UInt8) : Bool := decide (0x80 ≤ b.toNat) && decide (b.toNat ≤ 0xBF)

/-- Width in bytes of the first "character" of a non-empty string as seen by Go's `for i, c := range value`
(the Go specification: well-formed UTF-8 sequences as a whole, every byte that does not start one alone, as U+FFFD). -/
def runeWidth : Bytes → Nat
  | b0 :: b1 :: b2 :: b3 :: _ =>
    if runeWidth3 b0 b1 b2 ≠ 1 then runeWidth3 b0 b1 b2
    else if ((b0.toNat = 0xF0 ∧ 0x90 ≤ b1.toNat ∧ b1.toNat ≤ 0xBF)
        ∨ (0xF1 ≤ b0.toNat ∧ b0.toNat ≤ 0xF3 ∧ isCont b1)
        ∨ (b0.toNat = 0xF4 ∧ 0x80 ≤ b1.toNat ∧ b1.toNat ≤ 0x8F)) ∧ isCont b2 ∧ isCont b3 then 4 else 1
  | [b0, b1, b2] => runeWidth3 b0 b1 b2
  | [b0, b1] => runeWidth2 b0 b1
  | _ => 1
where
  runeWidth2 (b0 b1 : UInt8) : Nat :=
    if 0xC2 ≤ b0.toNat ∧ b0.toNat ≤ 0xDF ∧ isCont b1 then 2 else 1
  runeWidth3 (b0 b1 b2 : UInt8) : Nat :=
    if runeWidth2 b0 b1 ≠ 1 then 2
    else if ((b0.toNat = 0xE0 ∧ 0xA0 ≤ b1.toNat ∧ b1.toNat ≤ 0xBF)
        ∨ (0xE1 ≤ b0.toNat ∧ b0.toNat ≤ 0xEC ∧ isCont b1)
        ∨ (b0.toNat = 0xED ∧ 0x80 ≤ b1.toNat ∧ b1.toNat ≤ 0x9F)
        ∨ (0xEE ≤ b0.toNat ∧ b0.toNat ≤ 0xEF ∧ isCont b1)) ∧ isCont b2 then 3 else 1

/-- Go's conversion `string(b)` of a *byte*: the UTF-8 encoding of the code point `b`. -/
def stringOfByte (b : UInt8) : Bytes :=
  if b.toNat < 0x80 then [b]
  else [UInt8.ofNat (0xC0 + b.toNat / 64), UInt8.ofNat (0x80 + b.toNat % 64)]

/-- The loop of `EscapeBytes` (common/functions.go:31-42). `skip` is the number of remaining bytes of the current
rune that the `range` loop does not visit. The rune `c` is 92, 93 or 34 iff its (only) byte is. -/
def escapeBytesLoop : Bytes → Nat → Bytes
  | [], _ => []
  | _ :: cs, skip + 1 => escapeBytesLoop cs skip
  | c :: cs, 0 =>
    (if c.toNat = 92 ∨ c.toNat = 93 ∨ c.toNat = 34 then [92] else []) ++ stringOfByte c
      ++ escapeBytesLoop cs (runeWidth (c :: cs) - 1)

/-- `EscapeBytes` (common/functions.go:31-42). -/
def escapeBytes (value : Bytes) : Bytes := escapeBytesLoop value 0

/-- `InBetween` (common/functions.go:45-47). -/
def inBetween (val min max : Int) : Bool := decide (val ≥ min) && decide (val ≤ max)

/-- `ValidPriority` (common/functions.go:50-52). -/
def validPriority (priority : UInt8) : Bool := inBetween priority.toNat 0 191

/-- `ValidVersion` (common/functions.go:55-57). -/
def validVersion (version : UInt16) : Bool := inBetween version.toNat 1 999

end Verif.Common
