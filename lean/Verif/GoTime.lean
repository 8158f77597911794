import Verif.Bytes

/-!
# The part of Go's `time` package the library uses

`time.Time` is modelled by the civil date and clock reading in its own zone, the nanoseconds and the zone offset
(seconds east of UTC). What is abstracted away: the identity/name of the `*Location` (only its offset at that instant
remains) and the monotonic clock reading (values produced by `Parse` have none).
-/

namespace Verif.GoTime

structure Time where
  year : Int
  month : Nat
  day : Nat
  hour : Nat
  min : Nat
  sec : Nat
  nsec : Nat
  /-- seconds east of UTC -/
  off : Int
  deriving DecidableEq, Repr

/-- Go `time.isLeap`: `year%4 == 0 && (year%100 != 0 || year%400 == 0)`. -/
def isLeap (year : Int) : Bool := decide (year % 4 = 0) && (decide (year % 100 ≠ 0) || decide (year % 400 = 0))

/-- Go `time.daysIn`. -/
def daysIn (month : Nat) (year : Int) : Nat :=
  if month = 2 then (if isLeap year then 29 else 28)
  else if month = 4 ∨ month = 6 ∨ month = 9 ∨ month = 11 then 30
  else 31

/-- value of an ASCII digit -/
def dig (b : UInt8) : Nat := b.toNat - 48

def isDigit (b : UInt8) : Bool := decide (48 ≤ b.toNat) && decide (b.toNat ≤ 57)

/-- decimal value of a digit string -/
def decVal : Bytes → Nat := List.foldl (fun acc b => acc * 10 + dig b) 0

/-- The zone suffix of a layout with `Z07:00`: `Z` or `±hh:mm` (Go `time.parse`, case `stdISO8601ColonTZ`).
Go also range-checks `hh ≤ 24` and `mm ≤ 60`; the texts passed here always satisfy it. -/
def parseZone : Bytes → Option Int
  | [90] => some 0
  | [s, h1, h2, 58, m1, m2] =>
    if isDigit h1 && isDigit h2 && isDigit m1 && isDigit m2 then
      if s = 43 then some (((dig h1 * 10 + dig h2) * 60 + (dig m1 * 10 + dig m2)) * 60 : Nat)
      else if s = 45 then some (-(((dig h1 * 10 + dig h2) * 60 + (dig m1 * 10 + dig m2)) * 60 : Nat))
      else none
    else none
  | _ => none

/-- The optional fraction accepted for `.999999` (Go `time.parse`, case `stdFracSecond9`): a period directly
followed by a digit starts a fraction made of all the following digits; otherwise the fraction is omitted.
Returns the nanoseconds and the rest. -/
def parseFrac : Bytes → Nat × Bytes
  | 46 :: d :: r =>
    if isDigit d then
      let ds := d :: r.takeWhile isDigit
      (decVal (ds.take 9) * 10 ^ (9 - (ds.take 9).length), r.dropWhile isDigit)
    else (0, 46 :: d :: r)
  | r => (0, r)

/-- `time.Parse("2006-01-02T15:04:05.999999Z07:00", s)`; `none` is a non-nil error. The final range checks of Go's
`time.parse` (month, hour, minute, second, and day against `daysIn(month, year)`) are included. Restricted to the shape
`dddd-dd-ddTdd:dd:dd[.d+](Z|±dd:dd)`: other strings (for instance one-digit hours, which Go's parser would accept)
never reach this function because the FSM runs first; for them the model answers `none`. -/
def parseRFC3339Micro : Bytes → Option Time
  | y1 :: y2 :: y3 :: y4 :: 45 :: o1 :: o2 :: 45 :: d1 :: d2 :: 84 ::
      h1 :: h2 :: 58 :: n1 :: n2 :: 58 :: s1 :: s2 :: r =>
    if [y1, y2, y3, y4, o1, o2, d1, d2, h1, h2, n1, n2, s1, s2].all isDigit then
      let year := decVal [y1, y2, y3, y4]
      let month := decVal [o1, o2]
      let day := decVal [d1, d2]
      let hour := decVal [h1, h2]
      let min := decVal [n1, n2]
      let sec := decVal [s1, s2]
      match parseZone (parseFrac r).2 with
      | none => none
      | some off =>
        if 1 ≤ month ∧ month ≤ 12 ∧ hour < 24 ∧ min < 60 ∧ sec < 60 ∧ 1 ≤ day ∧ day ≤ daysIn month year then
          some ⟨year, month, day, hour, min, sec, (parseFrac r).1, off⟩
        else none
    else none
  | _ => none

end Verif.GoTime
