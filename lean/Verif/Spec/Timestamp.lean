import Verif.GoTime

/-!
# Specification: RFC 3339 timestamps as used by RFC 5424 (section 6.2.3)

A `Stamp` is the abstract content of a timestamp; `Stamp.render` is its text; `Stamp.WF` are the ranges of the
grammar; `Stamp.Real` says that the date exists; `Stamp.time` is the instant and zone it denotes.
-/

namespace Verif.Spec

/-- ASCII digit -/
def digit (n : Nat) : UInt8 := UInt8.ofNat (48 + n)

/-- two decimal digits -/
def d2 (n : Nat) : Bytes := [digit (n / 10), digit (n % 10)]

/-- four decimal digits -/
def d4 (n : Nat) : Bytes := d2 (n / 100) ++ d2 (n % 100)

/-- `time-offset`: `Z`, or sign, hours and minutes. -/
inductive Zone where
  | utc
  | num (negative : Bool) (hour min : Nat)
  deriving DecidableEq, Repr

structure Stamp where
  year : Nat
  month : Nat
  day : Nat
  hour : Nat
  min : Nat
  sec : Nat
  /-- digits of the fraction of a second; `[]` when there is none -/
  frac : List Nat
  zone : Zone
  deriving DecidableEq, Repr

def Zone.render : Zone → Bytes
  | .utc => [90]
  | .num neg h m => (if neg then 45 else 43) :: (d2 h ++ 58 :: d2 m)

def Zone.WF : Zone → Prop
  | .utc => True
  | .num _ h m => h ≤ 23 ∧ m ≤ 59

/-- seconds east of UTC -/
def Zone.seconds : Zone → Int
  | .utc => 0
  | .num neg h m => if neg then -((h * 3600 + m * 60 : Nat) : Int) else ((h * 3600 + m * 60 : Nat) : Int)

/-- `.` and the fraction digits, or nothing -/
def fracRender : List Nat → Bytes
  | [] => []
  | ds => 46 :: ds.map digit

/-- nanoseconds: the fraction digits padded to nine -/
def fracNanos (ds : List Nat) : Nat := ds.foldl (fun a d => a * 10 + d) 0 * 10 ^ (9 - ds.length)

namespace Stamp

/-- `YYYY-MM-DDThh:mm:ss[.ffffff](Z|±hh:mm)` -/
def render (s : Stamp) : Bytes :=
  d4 s.year ++ 45 :: (d2 s.month ++ 45 :: (d2 s.day ++ 84 :: (d2 s.hour ++ 58 :: (d2 s.min ++ 58 :: (d2 s.sec ++
    (fracRender s.frac ++ s.zone.render))))))

/-- Ranges of the grammar; at most six fraction digits. -/
def WF (s : Stamp) : Prop :=
  s.year ≤ 9999 ∧ 1 ≤ s.month ∧ s.month ≤ 12 ∧ 1 ≤ s.day ∧ s.day ≤ 31 ∧ s.hour ≤ 23 ∧ s.min ≤ 59 ∧ s.sec ≤ 59 ∧
  s.frac.length ≤ 6 ∧ (∀ d ∈ s.frac, d ≤ 9) ∧ s.zone.WF

/-- number of days of a month in the proleptic Gregorian calendar -/
def monthDays (year month : Nat) : Nat :=
  if month = 2 then (if (4 ∣ year ∧ ¬ 100 ∣ year) ∨ 400 ∣ year then 29 else 28)
  else if month ∈ [4, 6, 9, 11] then 30 else 31

/-- The date exists. -/
def Real (s : Stamp) : Prop := s.day ≤ monthDays s.year s.month

/-- What the timestamp denotes. -/
def time (s : Stamp) : GoTime.Time :=
  { year := s.year, month := s.month, day := s.day, hour := s.hour, min := s.min, sec := s.sec
    nsec := fracNanos s.frac, off := s.zone.seconds }

instance (s : Stamp) : Decidable s.Real := inferInstanceAs (Decidable (_ ≤ _))

end Stamp
end Verif.Spec
