import Verif.Spec.Utf8

/-! # The UTF-8 sub-automaton shared by the three FSMs (common/common.rl:49-57, `utf8tail`, `utf8char*`) -/

namespace Verif
open Spec

/-- States of the UTF-8 automaton: between characters, or what is expected next. -/
inductive U8 where
  | s0 | c1 | e0 | c2 | ed | f0 | c3 | f4
  deriving DecidableEq, Repr

namespace U8

def step : U8 → UInt8 → Option U8
  | s0, b =>
    if b.toNat ≤ 0x7F then some s0
    else if b.toNat ≤ 0xC1 then none
    else if b.toNat ≤ 0xDF then some c1
    else if b.toNat = 0xE0 then some e0
    else if b.toNat ≤ 0xEC then some c2
    else if b.toNat = 0xED then some ed
    else if b.toNat ≤ 0xEF then some c2
    else if b.toNat = 0xF0 then some f0
    else if b.toNat ≤ 0xF3 then some c3
    else if b.toNat = 0xF4 then some f4
    else none
  | c1, b => if 0x80 ≤ b.toNat ∧ b.toNat ≤ 0xBF then some s0 else none
  | e0, b => if 0xA0 ≤ b.toNat ∧ b.toNat ≤ 0xBF then some c1 else none
  | c2, b => if 0x80 ≤ b.toNat ∧ b.toNat ≤ 0xBF then some c1 else none
  | ed, b => if 0x80 ≤ b.toNat ∧ b.toNat ≤ 0x9F then some c1 else none
  | f0, b => if 0x90 ≤ b.toNat ∧ b.toNat ≤ 0xBF then some c2 else none
  | c3, b => if 0x80 ≤ b.toNat ∧ b.toNat ≤ 0xBF then some c2 else none
  | f4, b => if 0x80 ≤ b.toNat ∧ b.toNat ≤ 0x8F then some c2 else none

/-- Offset of the first byte at which the automaton gets stuck (the length of the text when it ends inside a character);
`none` when the whole text is accepted. -/
def firstBad : U8 → Bytes → Option Nat
  | s, [] => if s = s0 then none else some 0
  | s, b :: l =>
    match step s b with
    | none => some 0
    | some s' => (firstBad s' l).map (· + 1)

theorem firstBad_le {s : U8} {l : Bytes} {n : Nat} (h : firstBad s l = some n) : n ≤ l.length := by
  induction l generalizing s n with
  | nil => simp only [firstBad] at h; split at h <;> simp_all
  | cons b l ih =>
    simp only [firstBad] at h
    split at h
    · simp at h; omega
    · rename_i s' _
      cases hf : firstBad s' l with
      | none => simp [hf] at h
      | some k => simp [hf] at h; have := ih hf; simp; omega

/-- texts accepted from a state -/
def Acc (s : U8) (l : Bytes) : Prop := firstBad s l = none

theorem acc_cons {s : U8} {b : UInt8} {l : Bytes} : Acc s (b :: l) ↔ ∃ s', step s b = some s' ∧ Acc s' l := by
  simp only [Acc, firstBad]
  cases step s b <;> simp

theorem acc_s0_nil : Acc s0 [] := rfl

theorem char_acc {c l : Bytes} (hc : Utf8Char c) (hl : Acc s0 l) : Acc s0 (c ++ l) := by
  cases hc <;> simp only [List.cons_append, List.nil_append, acc_cons]
  case u1 a h => exact ⟨s0, by simp only [step]; rw [if_pos h.2], hl⟩
  case u2 a b h1 h2 =>
    refine ⟨c1, ?_, s0, ?_, hl⟩
    · obtain ⟨h, h'⟩ := h1; simp only [step]; rw [if_neg (by omega), if_neg (by omega), if_pos (by omega)]
    · obtain ⟨h, h'⟩ := h2; simp [step, h, h']
  case u3e0 a b c h1 h2 h3 =>
    refine ⟨e0, ?_, c1, ?_, s0, ?_, hl⟩
    · simp [step, h1]
    · obtain ⟨h, h'⟩ := h2; simp [step, h, h']
    · obtain ⟨h, h'⟩ := h3; simp [step, h, h']
  case u3 a b c h1 h2 h3 =>
    refine ⟨c2, ?_, c1, ?_, s0, ?_, hl⟩
    · simp only [btw] at h1
      simp only [step]
      rw [if_neg (by omega), if_neg (by omega), if_neg (by omega), if_neg (by omega)]
      rcases h1 with h1 | h1
      · rw [if_pos (by omega)]
      · rw [if_neg (by omega), if_neg (by omega), if_pos (by omega)]
    · obtain ⟨h, h'⟩ := h2; simp [step, h, h']
    · obtain ⟨h, h'⟩ := h3; simp [step, h, h']
  case u3ed a b c h1 h2 h3 =>
    refine ⟨ed, ?_, c1, ?_, s0, ?_, hl⟩
    · simp [step, h1]
    · obtain ⟨h, h'⟩ := h2; simp [step, h, h']
    · obtain ⟨h, h'⟩ := h3; simp [step, h, h']
  case u4f0 a b c d h1 h2 h3 h4 =>
    refine ⟨f0, ?_, c2, ?_, c1, ?_, s0, ?_, hl⟩
    · simp [step, h1]
    · obtain ⟨h, h'⟩ := h2; simp [step, h, h']
    · obtain ⟨h, h'⟩ := h3; simp [step, h, h']
    · obtain ⟨h, h'⟩ := h4; simp [step, h, h']
  case u4 a b c d h1 h2 h3 h4 =>
    refine ⟨c3, ?_, c2, ?_, c1, ?_, s0, ?_, hl⟩
    · simp only [btw] at h1
      simp only [step]
      rw [if_neg (by omega), if_neg (by omega), if_neg (by omega), if_neg (by omega), if_neg (by omega),
        if_neg (by omega), if_neg (by omega), if_neg (by omega), if_pos (by omega)]
    · obtain ⟨h, h'⟩ := h2; simp [step, h, h']
    · obtain ⟨h, h'⟩ := h3; simp [step, h, h']
    · obtain ⟨h, h'⟩ := h4; simp [step, h, h']
  case u4f4 a b c d h1 h2 h3 h4 =>
    refine ⟨f4, ?_, c2, ?_, c1, ?_, s0, ?_, hl⟩
    · simp [step, h1]
    · obtain ⟨h, h'⟩ := h2; simp [step, h, h']
    · obtain ⟨h, h'⟩ := h3; simp [step, h, h']
    · obtain ⟨h, h'⟩ := h4; simp [step, h, h']

/-- Texts that complete the current character and continue well-formed. -/
def Compl : U8 → Bytes → Prop
  | s0, l => Utf8 l
  | c1, l => ∃ b r, l = b :: r ∧ tail b ∧ Utf8 r
  | e0, l => ∃ a b r, l = a :: b :: r ∧ btw 0xA0 0xBF a ∧ tail b ∧ Utf8 r
  | c2, l => ∃ a b r, l = a :: b :: r ∧ tail a ∧ tail b ∧ Utf8 r
  | ed, l => ∃ a b r, l = a :: b :: r ∧ btw 0x80 0x9F a ∧ tail b ∧ Utf8 r
  | f0, l => ∃ a b c r, l = a :: b :: c :: r ∧ btw 0x90 0xBF a ∧ tail b ∧ tail c ∧ Utf8 r
  | c3, l => ∃ a b c r, l = a :: b :: c :: r ∧ tail a ∧ tail b ∧ tail c ∧ Utf8 r
  | f4, l => ∃ a b c r, l = a :: b :: c :: r ∧ btw 0x80 0x8F a ∧ tail b ∧ tail c ∧ Utf8 r

theorem acc_compl (l : Bytes) : ∀ s, Acc s l → Compl s l := by
  induction l with
  | nil => intro s h; cases s <;> simp [Acc, firstBad] at h; exact Utf8.nil
  | cons b l ih =>
    intro s h
    rw [acc_cons] at h
    obtain ⟨s', h1, h2⟩ := h
    have ih := ih s' h2
    cases s <;> simp only [step] at h1
    case s0 =>
      split at h1
      · simp only [Option.some.injEq] at h1; subst h1
        exact Utf8.cons (Utf8Char.u1 ⟨Nat.zero_le _, by assumption⟩) ih
      split at h1
      · simp at h1
      split at h1
      · simp only [Option.some.injEq] at h1; subst h1
        obtain ⟨x, r, rfl, hx, hr⟩ := ih
        exact Utf8.cons (Utf8Char.u2 ⟨by omega, by omega⟩ hx) hr
      split at h1
      · simp only [Option.some.injEq] at h1; subst h1
        obtain ⟨x, y, r, rfl, hx, hy, hr⟩ := ih
        exact Utf8.cons (Utf8Char.u3e0 (by omega) hx hy) hr
      split at h1
      · simp only [Option.some.injEq] at h1; subst h1
        obtain ⟨x, y, r, rfl, hx, hy, hr⟩ := ih
        exact Utf8.cons (Utf8Char.u3 (Or.inl ⟨by omega, by omega⟩) hx hy) hr
      split at h1
      · simp only [Option.some.injEq] at h1; subst h1
        obtain ⟨x, y, r, rfl, hx, hy, hr⟩ := ih
        exact Utf8.cons (Utf8Char.u3ed (by omega) hx hy) hr
      split at h1
      · simp only [Option.some.injEq] at h1; subst h1
        obtain ⟨x, y, r, rfl, hx, hy, hr⟩ := ih
        exact Utf8.cons (Utf8Char.u3 (Or.inr ⟨by omega, by omega⟩) hx hy) hr
      split at h1
      · simp only [Option.some.injEq] at h1; subst h1
        obtain ⟨x, y, z, r, rfl, hx, hy, hz, hr⟩ := ih
        exact Utf8.cons (Utf8Char.u4f0 (by omega) hx hy hz) hr
      split at h1
      · simp only [Option.some.injEq] at h1; subst h1
        obtain ⟨x, y, z, r, rfl, hx, hy, hz, hr⟩ := ih
        exact Utf8.cons (Utf8Char.u4 ⟨by omega, by omega⟩ hx hy hz) hr
      split at h1
      · simp only [Option.some.injEq] at h1; subst h1
        obtain ⟨x, y, z, r, rfl, hx, hy, hz, hr⟩ := ih
        exact Utf8.cons (Utf8Char.u4f4 (by omega) hx hy hz) hr
      · simp at h1
    all_goals
      split at h1
      · rename_i hb
        simp only [Option.some.injEq] at h1; subst h1
        simp only [Compl] at ih ⊢
        first
        | exact ⟨b, l, rfl, hb, ih⟩
        | (obtain ⟨x, r, rfl, hx, hr⟩ := ih; exact ⟨b, x, r, rfl, hb, hx, hr⟩)
        | (obtain ⟨x, y, r, rfl, hx, hy, hr⟩ := ih; exact ⟨b, x, y, r, rfl, hb, hx, hy, hr⟩)
      · simp at h1

/-- The automaton accepts exactly well-formed UTF-8. -/
theorem acc_iff (l : Bytes) : Acc s0 l ↔ Utf8 l := by
  refine ⟨acc_compl l s0, fun h => ?_⟩
  induction h with
  | nil => rfl
  | cons hc _ ih => exact char_acc hc ih

end U8
end Verif
