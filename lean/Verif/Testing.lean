import Verif.Bytes

/-!
# Model: the helpers of package testing (the part without time)

`testing/testing.go`. `StringAddress`, `Uint8Address` (which return the address of a copy), `TimeParse` and `YearTime` (package time) are not modelled.
-/

namespace Verif.Testing

/-- testing/testing.go:14 -/
def letterBytes : Bytes := ascii "abcdefghijklmnopqrstuvwxyzABCDEFGHIJKLMNOPQRSTUVWXYZ"

/-- testing/testing.go:15-17: `letterIdxBits`, `letterIdxMask`, `letterIdxMax` -/
def letterIdxBits : Nat := 6
def letterIdxMask : Nat := 2 ^ letterIdxBits - 1
def letterIdxMax : Nat := 63 / letterIdxBits

/-- the variables of the loop, testing/testing.go:25. `left` is `i + 1`, `b` is `b[i+1:]`, `used` counts the calls of `src.Int63()`. -/
structure Loop where
  left : Nat
  b : Bytes
  cache : Nat
  remain : Nat
  used : Nat
  deriving DecidableEq, Repr

/-- one round of the loop, testing/testing.go:26-34. `src k` is the `k`-th result of `src.Int63()`, a number below 2^63. -/
def Loop.round (src : Nat → Nat) (s : Loop) : Loop :=
  let s := if s.remain = 0 then { s with cache := src s.used, remain := letterIdxMax, used := s.used + 1 } else s
  let idx := s.cache &&& letterIdxMask
  let s := match letterBytes[idx]? with
    | some c => { s with b := c :: s.b, left := s.left - 1 }
    | none => s
  { s with cache := s.cache >>> letterIdxBits, remain := s.remain - 1 }

/-- testing/testing.go:25-35: the loop, with at most `fuel` rounds (`none`: it has not ended). -/
def Loop.run (src : Nat → Nat) : Nat → Loop → Option Bytes
  | fuel, s => if s.left = 0 then some s.b else
    match fuel with
    | 0 => none
    | fuel + 1 => run src fuel (s.round src)

/-- `RandomBytes`, testing/testing.go:21-38, for `n >= 0` (`make` panics for negative `n`). The random source is arbitrary. -/
def randomBytes (src : Nat → Nat) (n fuel : Nat) : Option Bytes := Loop.run src fuel ⟨n, [], src 0, letterIdxMax, 1⟩

/-- `RightPad`, testing/testing.go:66-69: `none` is the panic of `strings.Repeat` for a negative count. -/
def rightPad (str : Bytes) (limit : Int) : Option Bytes :=
  if limit < 0 then none else some ((str ++ List.replicate limit.toNat 32).take limit.toNat)

/-- testing/testing.go:42-46: `MaxPriority`, `MaxVersion`, `MaxRFC3339MicroTimestamp` -/
def maxPriority : Nat := 191
def maxVersion : Nat := 999
def maxRFC3339MicroTimestamp : Bytes := ascii "2018-12-31T23:59:59.999999-23:59"

end Verif.Testing
