import Verif.Common
import Verif.Spec.Builder
import Verif.Utf8
import Verif.Props.Common

/-! # What `EscapeBytes` does to values that are not US-ASCII -/

namespace Verif.Builder
open Verif.Spec Verif.Common

def mangleLoop : Bytes → Nat → Bytes
  | [], _ => []
  | _ :: cs, skip + 1 => mangleLoop cs skip
  | c :: cs, 0 => stringOfByte c ++ mangleLoop cs (runeWidth (c :: cs) - 1)

def mangle (v : Bytes) : Bytes := mangleLoop v 0

theorem stringOfByte_eq (b : UInt8) : stringOfByte b = latin1 b := rfl

theorem latin1_char (b : UInt8) : Utf8Char (latin1 b) := by
  unfold latin1
  split
  · rename_i h; exact .u1 ⟨by omega, by omega⟩
  · rename_i h
    have hb := UInt8.toNat_lt b
    refine .u2 ?_ ?_
    · simp only [btw, UInt8.toNat_ofNat']; omega
    · simp only [tail, btw, UInt8.toNat_ofNat']; omega

theorem utf8_mangleLoop (v : Bytes) : ∀ k, Utf8 (mangleLoop v k) := by
  induction v with
  | nil => intro k; cases k <;> exact .nil
  | cons c cs ih =>
    intro k
    cases k with
    | zero => rw [mangleLoop]; exact .cons (latin1_char c) (ih _)
    | succ k => rw [mangleLoop]; exact ih _

theorem utf8_mangle (v : Bytes) : Utf8 (mangle v) := utf8_mangleLoop v 0

theorem special_iff (b : UInt8) : (b.toNat = 92 ∨ b.toNat = 93 ∨ b.toNat = 34) ↔ (b = 34 ∨ b = 92 ∨ b = 93) := by
  have e : ∀ n : Nat, n < 256 → (b.toNat = n ↔ b = UInt8.ofNat n) := by
    intro n hn
    rw [← UInt8.toNat_inj, UInt8.toNat_ofNat', Nat.mod_eq_of_lt hn]
  rw [e 92 (by omega), e 93 (by omega), e 34 (by omega)]
  exact ⟨fun h => by rcases h with h | h | h <;> simp [h], fun h => by rcases h with h | h | h <;> simp [h]⟩

theorem escape_append (a b : Bytes) : escape (a ++ b) = escape a ++ escape b := by
  induction a with
  | nil => rfl
  | cons x a ih => simp only [List.cons_append, escape, ih]; split <;> rfl

theorem escape_high {b : UInt8} (h : 128 ≤ b.toNat) : escape [b] = [b] := by
  rw [escape, if_neg]
  · rfl
  · rw [← special_iff]; omega

theorem escape_latin1 (b : UInt8) : escape (latin1 b) = (if b.toNat = 92 ∨ b.toNat = 93 ∨ b.toNat = 34 then [92] else []) ++ latin1 b := by
  unfold latin1
  by_cases h : b.toNat < 128
  · rw [if_pos h, escape]
    by_cases hs : b.toNat = 92 ∨ b.toNat = 93 ∨ b.toNat = 34
    · rw [if_pos hs, if_pos ((special_iff b).mp hs)]; rfl
    · rw [if_neg hs, if_neg (fun hh => hs ((special_iff b).mpr hh))]; rfl
  · have hb := UInt8.toNat_lt b
    rw [if_neg h, if_neg (by omega)]
    have := escape_append [UInt8.ofNat (0xC0 + b.toNat / 64)] [UInt8.ofNat (0x80 + b.toNat % 64)]
    rw [escape_high (by rw [UInt8.toNat_ofNat']; omega), escape_high (by rw [UInt8.toNat_ofNat']; omega)] at this
    exact this

theorem escapeLoop_eq (v : Bytes) : ∀ k, escapeBytesLoop v k = escape (mangleLoop v k) := by
  induction v with
  | nil => intro k; cases k <;> rfl
  | cons c cs ih =>
    intro k
    cases k with
    | zero => rw [escapeBytesLoop, mangleLoop, ih, escape_append, stringOfByte_eq, escape_latin1]
    | succ k => rw [escapeBytesLoop, mangleLoop, ih]

theorem escapeBytes_eq (v : Bytes) : escapeBytes v = escape (mangle v) := escapeLoop_eq v 0

theorem width2 {a b : UInt8} (ha : btw 0xC2 0xDF a) (hb : tail b) : runeWidth.runeWidth2 a b = 2 := by
  simp only [btw, tail] at ha hb
  rw [runeWidth.runeWidth2, if_pos ⟨ha.1, ha.2, by simp [isCont, hb]⟩]

theorem not_width2 {a b : UInt8} (ha : a.toNat < 0xC2 ∨ 0xDF < a.toNat) : runeWidth.runeWidth2 a b = 1 := by
  rw [runeWidth.runeWidth2, if_neg (by omega)]

def three (a b : UInt8) : Prop := (a.toNat = 0xE0 ∧ 0xA0 ≤ b.toNat ∧ b.toNat ≤ 0xBF)
        ∨ (0xE1 ≤ a.toNat ∧ a.toNat ≤ 0xEC ∧ isCont b)
        ∨ (a.toNat = 0xED ∧ 0x80 ≤ b.toNat ∧ b.toNat ≤ 0x9F)
        ∨ (0xEE ≤ a.toNat ∧ a.toNat ≤ 0xEF ∧ isCont b)

theorem isCont_tail {b : UInt8} (h : tail b) : isCont b = true := by
  simp only [btw, tail] at h
  simp [isCont, h]

theorem width3 {a b c : UInt8} (h : three a b) (hc : tail c) : runeWidth.runeWidth3 a b c = 3 := by
  have ha : 0xDF < a.toNat := by unfold three at h; omega
  rw [runeWidth.runeWidth3, not_width2 (Or.inr ha), if_neg (by simp), if_pos ⟨h, isCont_tail hc⟩]

theorem not_width3 {a b c : UInt8} (h : a.toNat < 0xC2 ∨ 0xEF < a.toNat) : runeWidth.runeWidth3 a b c = 1 := by
  rw [runeWidth.runeWidth3, not_width2 (by omega), if_neg (by simp), if_neg (by omega)]

def four (a b : UInt8) : Prop := (a.toNat = 0xF0 ∧ 0x90 ≤ b.toNat ∧ b.toNat ≤ 0xBF)
        ∨ (0xF1 ≤ a.toNat ∧ a.toNat ≤ 0xF3 ∧ isCont b)
        ∨ (a.toNat = 0xF4 ∧ 0x80 ≤ b.toNat ∧ b.toNat ≤ 0x8F)

theorem rune1 {a : UInt8} (h : a.toNat < 0xC2) (l : Bytes) : runeWidth (a :: l) = 1 := by
  match l with
  | [] => rfl
  | [b] => exact not_width2 (Or.inl h)
  | [b, c] => exact not_width3 (Or.inl h)
  | b :: c :: d :: r => rw [runeWidth, not_width3 (Or.inl h), if_neg (by simp), if_neg (by omega)]

theorem rune2 {a b : UInt8} (ha : btw 0xC2 0xDF a) (hb : tail b) (l : Bytes) : runeWidth (a :: b :: l) = 2 := by
  have h3 : ∀ c, runeWidth.runeWidth3 a b c = 2 := by
    intro c; rw [runeWidth.runeWidth3, width2 ha hb, if_pos (by simp)]
  match l with
  | [] => exact width2 ha hb
  | [c] => exact h3 c
  | c :: d :: r => rw [runeWidth, h3, if_pos (by simp)]

theorem rune3 {a b c : UInt8} (h : three a b) (hc : tail c) (l : Bytes) : runeWidth (a :: b :: c :: l) = 3 := by
  match l with
  | [] => exact width3 h hc
  | d :: r => rw [runeWidth, width3 h hc, if_pos (by simp)]

theorem rune4 {a b c d : UInt8} (h : four a b) (hc : tail c) (hd : tail d) (l : Bytes) : runeWidth (a :: b :: c :: d :: l) = 4 := by
  have ha : 0xEF < a.toNat := by unfold four at h; omega
  rw [runeWidth, not_width3 (Or.inr ha), if_neg (by simp), if_pos ⟨h, isCont_tail hc, isCont_tail hd⟩]

theorem runeWidth_char {x : Bytes} (hx : Utf8Char x) (s : Bytes) : runeWidth (x ++ s) = x.length := by
  cases hx with
  | u1 h => simp only [btw] at h; exact rune1 (by omega) s
  | u2 h1 h2 => exact rune2 h1 h2 s
  | u3e0 h1 h2 h3 => exact rune3 (Or.inl ⟨h1, h2⟩) h3 s
  | u3 h1 h2 h3 =>
    refine rune3 ?_ h3 s
    simp only [btw] at h1
    rcases h1 with h1 | h1
    · exact Or.inr (Or.inl ⟨h1.1, h1.2, isCont_tail h2⟩)
    · exact Or.inr (Or.inr (Or.inr ⟨h1.1, h1.2, isCont_tail h2⟩))
  | u3ed h1 h2 h3 => exact rune3 (Or.inr (Or.inr (Or.inl ⟨h1, h2⟩))) h3 s
  | u4f0 h1 h2 h3 h4 => exact rune4 (Or.inl ⟨h1, h2⟩) h3 h4 s
  | u4 h1 h2 h3 h4 => simp only [btw] at h1; exact rune4 (Or.inr (Or.inl ⟨h1.1, h1.2, isCont_tail h2⟩)) h3 h4 s
  | u4f4 h1 h2 h3 h4 => exact rune4 (Or.inr (Or.inr ⟨h1, h2⟩)) h3 h4 s

theorem mangleLoop_skip (c s : Bytes) : mangleLoop (c ++ s) c.length = mangleLoop s 0 := by
  induction c with
  | nil => rfl
  | cons x c ih => simp only [List.cons_append, List.length_cons, mangleLoop, ih]

theorem mangle_cons {a : UInt8} {c : Bytes} (h : Utf8Char (a :: c)) (s : Bytes) : mangle (a :: c ++ s) = latin1 a ++ mangle s := by
  have hw := runeWidth_char h s
  rw [mangle, List.cons_append, mangleLoop, ← List.cons_append, hw, stringOfByte_eq, List.length_cons, Nat.add_sub_cancel,
    mangleLoop_skip, mangle]

theorem mangled_mangle {v : Bytes} (h : Utf8 v) : Mangled v (mangle v) := by
  induction h with
  | nil => exact .nil
  | @cons c s hc _ ih =>
    match c, hc with
    | [], hc => cases hc
    | a :: c, hc => rw [mangle_cons hc]; exact .cons hc ih

/-- the relation is a function -/
theorem mangled_iff {v w : Bytes} : Mangled v w ↔ Utf8 v ∧ w = mangle v := by
  constructor
  · intro h
    induction h with
    | nil => exact ⟨.nil, rfl⟩
    | cons hc _ ih => exact ⟨.cons hc ih.1, by rw [mangle_cons hc, ih.2]⟩
  · rintro ⟨h, rfl⟩; exact mangled_mangle h

theorem mangle_stable_of {v : Bytes} (h : Stable v) : mangle v = v := by
  induction h with
  | nil => rfl
  | @ascii a s ha _ ih =>
    have := mangle_cons (a := a) (c := []) (.u1 ⟨by omega, by omega⟩) s
    rw [show a :: s = [a] ++ s from rfl, this, ih, latin1, if_pos ha]
  | @atilde s _ ih =>
    have := mangle_cons (a := 0xC3) (c := [0x83]) (.u2 (by decide) (by decide)) s
    rw [show (0xC3 :: 0x83 :: s : Bytes) = [0xC3, 0x83] ++ s from rfl, this, ih]; rfl

theorem high_latin1 {a : UInt8} (h : 0xC0 ≤ a.toNat) : latin1 a = [0xC3, UInt8.ofNat (0x80 + a.toNat % 64)] := by
  have := UInt8.toNat_lt a
  rw [latin1, if_neg (by omega), show 0xC0 + a.toNat / 64 = 0xC3 by omega]; rfl

theorem stable_of_mangle {v : Bytes} (hu : Utf8 v) (h : mangle v = v) : Stable v := by
  induction hu with
  | nil => exact .nil
  | @cons c s hc _ ih =>
    match c, hc with
    | [], hc => cases hc
    | a :: c, hc =>
      rw [mangle_cons hc] at h
      have big : 0xC0 ≤ a.toNat → a.toNat = 0xC3 := by
        intro ha
        rw [high_latin1 ha] at h
        simp only [List.cons_append, List.cons.injEq] at h
        rw [← h.1]; rfl
      cases hc with
      | u1 ha =>
        simp only [btw] at ha
        have ha' : a.toNat < 128 := by omega
        rw [latin1, if_pos ha'] at h
        exact .ascii ha' (ih (by simpa using h))
      | @u2 _ b ha hb =>
        simp only [btw] at ha
        have ha' := big (by omega)
        have haa : a = 0xC3 := by rw [← UInt8.toNat_inj, ha']; rfl
        subst haa
        rw [show latin1 0xC3 = [0xC3, 0x83] from rfl] at h
        simp only [List.cons_append, List.nil_append, List.cons.injEq, true_and] at h
        rw [← h.1]
        exact .atilde (ih h.2)
      | u3e0 ha _ _ => have := big (by omega); omega
      | u3 ha _ _ => simp only [btw] at ha; have := big (by omega); omega
      | u3ed ha _ _ => have := big (by omega); omega
      | u4f0 ha _ _ _ => have := big (by omega); omega
      | u4 ha _ _ _ => simp only [btw] at ha; have := big (by omega); omega
      | u4f4 ha _ _ _ => have := big (by omega); omega

theorem stable_ascii {v : Bytes} (h : ∀ b ∈ v, b.toNat < 128) : Stable v := by
  induction v with
  | nil => exact .nil
  | cons a v ih => exact .ascii (h a (by simp)) (ih fun b hb => h b (by simp [hb]))

end Verif.Builder
