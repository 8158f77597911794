import Verif.Spec.Rfc3164
import Verif.Spec.Rfc5424Errors
import Verif.Rfc3164.Machine

/-!
# Specification: inputs that are not messages (RFC 3164)

`Bsd.Broken iso tm input err m`: `input` is not a message; `err` is the error that is reported (`none`: nothing is
reported), and `m` is the partial message that best effort returns. `iso` tells whether `WithRFC3339` is on, and `tm` is the
time that a timestamp denotes under the other options.
-/

namespace Verif.Spec.Bsd
open Verif.Spec
open Verif.Rfc3164 (ErrKind)

/-- `Mmm dd hh:mm:ss` (the day may not exist in that month) -/
def BsdText (u : Bytes) : Prop := ∃ s : BStamp, s.WF ∧ u = s.render

/-- an RFC 3339 timestamp without fraction (the day may not exist in that month) -/
def IsoText (u : Bytes) : Prop := ∃ s : Stamp, s.WF ∧ s.frac = [] ∧ u = s.render

/-- `x` begins with a decimal digit -/
def DigitFirst (x : Bytes) : Prop := ∃ d t, x = d :: t ∧ 48 ≤ d.toNat ∧ d.toNat ≤ 57

/-- the day of the timestamp exists -/
def When.Exists : When → Prop
  | .bsd s => s.Real
  | .iso s => s.Real

/-- `<PRI>` -/
def priText (pri : Nat) : Bytes := [60] ++ dec pri ++ [62]

/-- a message with nothing but the priority -/
def priOnly (pri : Nat) : Base :=
  { priority := some (UInt8.ofNat pri), facility := some (UInt8.ofNat (pri / 8)), severity := some (UInt8.ofNat (pri % 8)) }

/-- the tag and the pid that were seen in a MSG (empty: none) -/
inductive Seen : Bytes → Bytes → Bytes → Prop
  | plain {msg : Bytes} : (∀ tag r, TagWF tag → msg ≠ tag ++ 58 :: r ∧ msg ≠ tag ++ 91 :: r) → Seen msg [] []
  | colon {tag r : Bytes} : TagWF tag → Seen (tag ++ 58 :: r) tag []
  | opened {tag s : Bytes} : TagWF tag → (∀ b ∈ s, b ≠ 93) → Seen (tag ++ 91 :: s) tag []
  | closed {tag u v pid : Bytes} : TagWF tag → (∀ b ∈ v, b ≠ 93) → LastPart u pid → Seen (tag ++ 91 :: (u ++ 93 :: v)) tag pid

inductive Broken (iso : Bool) (tm : When → GoTime.Time) : Bytes → Option (ErrKind × Nat) → Option Base → Prop
  | noLt {x : Bytes} : NotAt 60 x → Broken iso tm x (some (.pri, 0)) none
  /-- no digit of PRI was kept (the last byte of the input does not count) -/
  | noPri {x : Bytes} {n : Nat} : Fails PriText x n → (n = 0 ∨ n = 1 ∧ x.length = 1) →
      Broken iso tm (60 :: x) (some (.prival, 1 + n)) none
  /-- the number `k` was read, and then no `>` (if the input ends there, its last digit is lost) -/
  | pri {x : Bytes} {n k : Nat} : Fails PriText x n → x.take (if n = x.length then n - 1 else n) = dec k →
      Broken iso tm (60 :: x) (some (.prival, 1 + n)) (some (priOnly k))
  /-- no `Mmm dd hh:mm:ss` -/
  | timestamp {pri : Nat} {x : Bytes} {n : Nat} : pri ≤ 191 → ¬ (iso = true ∧ DigitFirst x) → Fails BsdText x n →
      Broken iso tm (priText pri ++ x) (some (.timestamp, (priText pri).length + n)) (some (priOnly pri))
  /-- a digit, but no `YYYY-MM-DDThh:mm:ss`: silent -/
  | noIso {pri : Nat} {x : Bytes} : pri ≤ 191 → iso = true → DigitFirst x → ¬ IsoPrefix x →
      Broken iso tm (priText pri ++ x) none (some (priOnly pri))
  /-- `YYYY-MM-DDThh:mm:ss` and no zone -/
  | isoZone {pri : Nat} {x : Bytes} {n : Nat} : pri ≤ 191 → iso = true → IsoPrefix x → Fails IsoText x n →
      Broken iso tm (priText pri ++ x) (some (.rfc3339, (priText pri).length + n)) (some (priOnly pri))
  /-- a timestamp without a space after it: silent -/
  | noSpace {pri : Nat} {w : When} {x : Bytes} : pri ≤ 191 → w.Text iso → NotAt 32 x →
      Broken iso tm (priText pri ++ w.render ++ x) none (some (priOnly pri))
  /-- a timestamp (and a space) whose day does not exist -/
  | noSuchDay {pri : Nat} {w : When} {x : Bytes} : pri ≤ 191 → w.Text iso → ¬ w.Exists →
      Broken iso tm (priText pri ++ w.render ++ [32] ++ x) (some (.timeParse, (priText pri ++ w.render).length)) (some (priOnly pri))
  | hostname {pri : Nat} {w : When} {x : Bytes} {n : Nat} : pri ≤ 191 → w.WF iso → Fails (FieldText 255) x n →
      Broken iso tm (priText pri ++ w.render ++ [32] ++ x) (some (.hostname, (priText pri ++ w.render).length + 1 + n))
        (some { priOnly pri with timestamp := some (tm w) })
  /-- MSG is empty or begins with a control character -/
  | tag {pri : Nat} {w : When} {host msg : Bytes} : pri ≤ 191 → w.WF iso → NameWF 255 host → ¬ Starts msg →
      Broken iso tm (priText pri ++ w.render ++ [32] ++ host ++ [32] ++ msg)
        (some (.tag, (priText pri ++ w.render ++ [32] ++ host).length + 1))
        (some { priOnly pri with timestamp := some (tm w), hostname := given host })
  /-- a control character further in MSG: silent -/
  | msg {pri : Nat} {w : When} {host msg tag pid : Bytes} : pri ≤ 191 → w.WF iso → NameWF 255 host → Starts msg →
      (∀ tag pid text, ¬ Reads msg tag pid text) → Seen msg tag pid →
      Broken iso tm (priText pri ++ w.render ++ [32] ++ host ++ [32] ++ msg) none
        (some { priOnly pri with timestamp := some (tm w), hostname := given host, appname := given tag, procID := given pid })

end Verif.Spec.Bsd
