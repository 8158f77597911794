import Verif.Common
import Verif.Builder.Mangle

/-!
# C79: the work of escaping a value
-/

namespace Verif.Props
open Verif

/-- The loop of `EscapeBytes` (common/functions.go:31-42) with a counter: `res += x` makes a new string and copies the bytes that `res` has
already, `n` counts them. -/
def escapeCount : Bytes → Nat → Bytes → Nat → Bytes × Nat
  | [], _, res, n => (res, n)
  | _ :: cs, skip + 1, res, n => escapeCount cs skip res n
  | c :: cs, 0, res, n =>
    let r1 := if c.toNat = 92 ∨ c.toNat = 93 ∨ c.toNat = 34 then (res ++ [92], n + res.length) else (res, n)
    escapeCount cs (Common.runeWidth (c :: cs) - 1) (r1.1 ++ Common.stringOfByte c) (r1.2 + r1.1.length)

theorem escapeCount_fst : ∀ (v : Bytes) (k : Nat) (res : Bytes) (n : Nat),
    (escapeCount v k res n).1 = res ++ Common.escapeBytesLoop v k := by
  intro v
  induction v with
  | nil => intro k res n; simp [escapeCount, Common.escapeBytesLoop]
  | cons c v ih =>
    intro k res n
    cases k with
    | succ k => rw [escapeCount, ih, Common.escapeBytesLoop]
    | zero =>
      rw [escapeCount, ih, Common.escapeBytesLoop]
      split <;> simp

theorem stringOfByte_length (c : UInt8) : (Common.stringOfByte c).length = 1 ∨ (Common.stringOfByte c).length = 2 := by
  unfold Common.stringOfByte
  split
  · exact Or.inl rfl
  · exact Or.inr rfl

theorem sq_add_one (a : Nat) : (a + 1) * (a + 1) = a * a + 2 * a + 1 := by rw [Nat.add_mul, Nat.mul_add]; omega
theorem sq_add_two (a : Nat) : (a + 2) * (a + 2) = a * a + 4 * a + 4 := by rw [Nat.add_mul, Nat.mul_add]; omega

/-- both bounds are kept by every `res += x` with `x` of one or two bytes -/
theorem escapeCount_bounds : ∀ (v : Bytes) (k : Nat) (res : Bytes) (n : Nat),
    2 * n ≤ res.length * res.length → res.length * res.length ≤ 4 * n + 2 * res.length →
    2 * (escapeCount v k res n).2 ≤ (escapeCount v k res n).1.length * (escapeCount v k res n).1.length ∧
    (escapeCount v k res n).1.length * (escapeCount v k res n).1.length ≤
      4 * (escapeCount v k res n).2 + 2 * (escapeCount v k res n).1.length := by
  intro v
  induction v with
  | nil => intro k res n h1 h2; exact ⟨h1, h2⟩
  | cons c v ih =>
    intro k res n h1 h2
    cases k with
    | succ k => rw [escapeCount]; exact ih _ _ _ h1 h2
    | zero =>
      rw [escapeCount]
      have hs := stringOfByte_length c
      have s1 := sq_add_one res.length
      have s2 := sq_add_two res.length
      have s3 := sq_add_one (res.length + 1)
      have s4 := sq_add_two (res.length + 1)
      split
      · refine ih _ _ _ ?_ ?_ <;>
        · simp only [List.length_append, List.length_cons, List.length_nil, Nat.zero_add]
          rcases hs with hs | hs <;> rw [hs] <;> omega
      · refine ih _ _ _ ?_ ?_ <;>
        · simp only [List.length_append]
          rcases hs with hs | hs <;> rw [hs] <;> omega

/-- C79: the result of the counting loop is that of `EscapeBytes`. -/
theorem C79_result (v : Bytes) : (escapeCount v 0 [] 0).1 = Common.escapeBytes v := by
  rw [escapeCount_fst]; rfl

/-- C79: for every value, with `L` the length of the result: `EscapeBytes` copies between about `L²/4` and `L²/2` bytes. -/
theorem C79_quadratic (v : Bytes) :
    2 * (escapeCount v 0 [] 0).2 ≤ (Common.escapeBytes v).length * (Common.escapeBytes v).length ∧
    (Common.escapeBytes v).length * (Common.escapeBytes v).length ≤
      4 * (escapeCount v 0 [] 0).2 + 2 * (Common.escapeBytes v).length := by
  rw [← C79_result v]
  exact escapeCount_bounds v 0 [] 0 (by decide) (by decide)

theorem escapeCount_plain : ∀ (v : Bytes), (∀ b ∈ v, b.toNat < 128 ∧ b ≠ 92 ∧ b ≠ 93 ∧ b ≠ 34) → ∀ (res : Bytes) (n : Nat),
    2 * (escapeCount v 0 res n).2 = 2 * n + 2 * (v.length * res.length) + v.length * (v.length - 1) := by
  intro v
  induction v with
  | nil => intro _ res n; simp [escapeCount]
  | cons c v ih =>
    intro h res n
    obtain ⟨h1, h2, h3, h4⟩ := h c (by simp)
    have hc : ¬ (c.toNat = 92 ∨ c.toNat = 93 ∨ c.toNat = 34) := by
      rintro (e | e | e)
      · exact h2 (UInt8.toNat.inj e)
      · exact h3 (UInt8.toNat.inj e)
      · exact h4 (UInt8.toNat.inj e)
    have hw : Common.runeWidth (c :: v) - 1 = 0 := by
      rw [Builder.rune1 (by omega) v]
    rw [escapeCount, hw]
    simp only [if_neg hc]
    rw [ih (fun b hb => h b (by simp [hb]))]
    simp only [Common.stringOfByte, if_pos h1, List.length_append, List.length_cons, List.length_nil, Nat.zero_add, Nat.add_sub_cancel]
    have e1 : v.length * (res.length + 1) = v.length * res.length + v.length := by rw [Nat.mul_add, Nat.mul_one]
    have e2 : (v.length + 1) * res.length = v.length * res.length + res.length := by rw [Nat.add_mul, Nat.one_mul]
    have e3 : (v.length + 1) * v.length = v.length * v.length + v.length := by rw [Nat.add_mul, Nat.one_mul]
    have e4 : v.length * (v.length - 1) + v.length = v.length * v.length := by
      cases v.length with
      | zero => rfl
      | succ n => rw [Nat.add_sub_cancel, ← Nat.mul_succ]
    omega

/-- C79: exactly `n(n-1)/2` for `n` bytes of US-ASCII of which none is escaped. -/
theorem C79_plain (v : Bytes) (h : ∀ b ∈ v, b.toNat < 128 ∧ b ≠ 92 ∧ b ≠ 93 ∧ b ≠ 34) :
    2 * (escapeCount v 0 [] 0).2 = v.length * (v.length - 1) := by
  rw [escapeCount_plain v h]; simp

/-- `hello` -/
example : (∀ b ∈ ([104, 101, 108, 108, 111] : Bytes), b.toNat < 128 ∧ b ≠ 92 ∧ b ≠ 93 ∧ b ≠ 34) ∧
    (escapeCount [104, 101, 108, 108, 111] 0 [] 0).2 = 10 := by decide

end Verif.Props
