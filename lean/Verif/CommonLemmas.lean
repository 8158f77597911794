import Verif.Common
import Verif.Spec.Rfc5424
import Verif.Timestamp

/-! # Lemmas about `common/functions.go` and decimal text -/

namespace Verif
open Spec

/-- value of a string of decimal digits, most significant first -/
def numVal (w : Bytes) : Nat := w.foldl (fun a c => a * 10 + (c.toNat - 48)) 0

def IsDigits (w : Bytes) : Prop := ∀ c ∈ w, 48 ≤ c.toNat ∧ c.toNat ≤ 57

theorem numVal_foldl (w : Bytes) (a : Nat) :
    w.foldl (fun a c => a * 10 + (c.toNat - 48)) a = a * 10 ^ w.length + numVal w := by
  induction w generalizing a with
  | nil => simp [numVal]
  | cons c w ih =>
    simp only [numVal, List.foldl_cons, List.length_cons]
    rw [ih, ih (0 * 10 + (c.toNat - 48)), Nat.pow_succ, Nat.zero_mul, Nat.zero_add, Nat.add_mul, Nat.mul_assoc,
      Nat.mul_comm 10, Nat.add_assoc]

theorem numVal_append (w w' : Bytes) : numVal (w ++ w') = numVal w * 10 ^ w'.length + numVal w' := by
  rw [numVal, List.foldl_append, ← numVal, numVal_foldl]

theorem numVal_snoc (w : Bytes) (c : UInt8) : numVal (w ++ [c]) = numVal w * 10 + (c.toNat - 48) := by
  simp [numVal, List.foldl_append]

theorem unsafeDecLoop_eq : ∀ (w : Bytes), IsDigits w → ∀ (out ord : BitVec 64),
    Common.unsafeDecLoop w.reverse out ord = out + ord * BitVec.ofNat 64 (numVal w) := by
  intro w
  generalize hl : w.length = n
  induction n generalizing w with
  | zero =>
    intro _ out ord
    have : w = [] := List.length_eq_zero_iff.mp hl
    subst this
    simp [Common.unsafeDecLoop, numVal]
  | succ n ih =>
    intro hd out ord
    have hne : w ≠ [] := by intro h; subst h; simp at hl
    obtain ⟨w0, c, rfl⟩ : ∃ w0 c, w = w0 ++ [c] := ⟨w.dropLast, w.getLast hne, (List.dropLast_concat_getLast hne).symm⟩
    have hl0 : w0.length = n := by simp at hl; exact hl
    have hd0 : IsDigits w0 := fun x hx => hd x (by simp [hx])
    have hc := hd c (by simp)
    rw [List.reverse_append, List.reverse_singleton, List.singleton_append, Common.unsafeDecLoop, ih w0 hl0 hd0,
      numVal_snoc]
    apply BitVec.eq_of_toNat_eq
    simp only [BitVec.toNat_add, BitVec.toNat_mul, BitVec.toNat_ofNat, BitVec.toNat_sub]
    have h1 : (2 ^ 64 - 48 % 2 ^ 64 + c.toNat % 2 ^ 64) % 2 ^ 64 = c.toNat - 48 := by
      have : c.toNat < 256 := UInt8.toNat_lt c
      omega
    rw [h1]
    have h2 : ∀ a b : Nat, a % 2 ^ 64 = b % 2 ^ 64 → a % 2 ^ 64 = b % 2 ^ 64 := fun _ _ h => h
    obtain ⟨d, hd'⟩ : ∃ d, d = c.toNat - 48 := ⟨_, rfl⟩
    rw [← hd']
    generalize numVal w0 = v
    generalize ord.toNat = o
    generalize out.toNat = u
    have e1 : (((u + d * o % 2 ^ 64) % 2 ^ 64 + (o * (10 % 2 ^ 64) % 2 ^ 64) * (v % 2 ^ 64) % 2 ^ 64) % 2 ^ 64) =
        (u + d * o + o * 10 * v) % 2 ^ 64 := by
      simp only [Nat.mod_mul_mod, Nat.mul_mod_mod, Nat.mod_mod, Nat.add_mod_mod, Nat.mod_add_mod]
    have e2 : (u + o * ((v * 10 + d) % 2 ^ 64) % 2 ^ 64) % 2 ^ 64 = (u + o * (v * 10 + d)) % 2 ^ 64 := by
      simp only [Nat.mod_mul_mod, Nat.mul_mod_mod, Nat.mod_mod, Nat.add_mod_mod, Nat.mod_add_mod]
    rw [e2, ← Nat.mod_mod (u + o * (v * 10 + d)), ← Nat.mod_mod]
    rw [show u + o * (v * 10 + d) = u + d * o + o * 10 * v by
      rw [Nat.mul_add, Nat.mul_comm v 10, ← Nat.mul_assoc, Nat.mul_comm d o]; omega]
    rw [← e1]

theorem unsafeDec_eq (w : Bytes) (h : IsDigits w) : Common.unsafeDec w = BitVec.ofNat 64 (numVal w) := by
  rw [Common.unsafeDec, unsafeDecLoop_eq w h]; simp

/-! ## decimal printing -/

theorem dec_lt {n : Nat} (h : n < 10) : dec n = [digit n] := by rw [dec, if_pos h]
theorem dec_ge {n : Nat} (h : 10 ≤ n) : dec n = dec (n / 10) ++ [digit (n % 10)] := by rw [dec, if_neg (by omega)]

theorem dec_ne_nil (n : Nat) : dec n ≠ [] := by
  rw [dec]; split <;> simp

theorem dec_digits (n : Nat) : IsDigits (dec n) := by
  induction n using Nat.strongRecOn with
  | _ n ih =>
    rw [dec]
    split
    · intro c hc
      simp only [List.mem_singleton] at hc
      subst hc
      rw [Ts.digit_toNat (by omega)]; omega
    · intro c hc
      simp only [List.mem_append, List.mem_singleton] at hc
      rcases hc with hc | hc
      · exact ih (n / 10) (by omega) c hc
      · subst hc
        rw [Ts.digit_toNat (by omega)]; omega

theorem numVal_dec (n : Nat) : numVal (dec n) = n := by
  induction n using Nat.strongRecOn with
  | _ n ih =>
    rw [dec]
    split
    · simp only [numVal, List.foldl_cons, List.foldl_nil]; rw [Ts.digit_toNat (by omega)]; omega
    · rw [numVal_snoc, ih _ (by omega), Ts.digit_toNat (by omega)]; omega

theorem dec_inj {a b : Nat} (h : dec a = dec b) : a = b := by rw [← numVal_dec a, h, numVal_dec]

/-- a digit string without leading zero is the decimal text of its value -/
theorem dec_numVal : ∀ (w : Bytes), IsDigits w → w ≠ [] → (w.head? ≠ some 48 ∨ w.length = 1) → dec (numVal w) = w := by
  intro w
  generalize hl : w.length = n
  induction n generalizing w with
  | zero => intro _ hne; exact absurd (List.length_eq_zero_iff.mp hl) hne
  | succ n ih =>
    intro hd hne hz
    obtain ⟨w0, c, rfl⟩ : ∃ w0 c, w = w0 ++ [c] := ⟨w.dropLast, w.getLast hne, (List.dropLast_concat_getLast hne).symm⟩
    have hl0 : w0.length = n := by simp at hl; exact hl
    have hd0 : IsDigits w0 := fun x hx => hd x (by simp [hx])
    have hc := hd c (by simp)
    have hdig : digit (c.toNat - 48) = c := (Ts.eq_digit hc.1 hc.2).symm
    by_cases h0 : w0 = []
    · subst h0
      have : numVal [c] = c.toNat - 48 := by simp [numVal]
      rw [List.nil_append, this, dec_lt (by omega), hdig]
    · have hz0 : w0.head? ≠ some 48 := by
        rcases hz with hz | hz
        · cases w0 with
          | nil => exact absurd rfl h0
          | cons a l => simpa using hz
        · have := List.length_pos_iff.mpr h0; omega
      have hih := ih w0 hl0 hd0 h0 (Or.inl hz0)
      have hpos : 1 ≤ numVal w0 := by
        apply Nat.pos_of_ne_zero
        intro h
        rw [h, dec_lt (by omega)] at hih
        rw [← hih] at hz0
        exact hz0 rfl
      rw [numVal_snoc, dec_ge (by omega), show (numVal w0 * 10 + (c.toNat - 48)) / 10 = numVal w0 by omega,
        show (numVal w0 * 10 + (c.toNat - 48)) % 10 = c.toNat - 48 by omega, hih, hdig]

end Verif
