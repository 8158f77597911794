import Verif.Octet.Errors
import Verif.Spec.OctetStream
import Verif.Props.Rfc5424Errors

/-! # `prun` and the specification of streams -/

namespace Verif.Octet
open Verif.Spec

theorem digit_nz {b : UInt8} : isNonZeroDigit b = true ↔ Digit b := by simp [isNonZeroDigit, Digit]
theorem digitish_is {b : UInt8} : isDigit b = true ↔ Digitish b := by simp [isDigit, Digitish]
theorem asInt_toInt (n : Nat) : asInt n = toInt n := rfl
theorem msgResult_eq (be : Bool) (m : Bytes) : msgResult be m = pmsg be m := rfl

/-! ## lengths -/

theorem parseUint_stop (w : Bytes) (c : UInt8) (r : Bytes) (n : Nat) (hd : IsDigits w) (hc : ¬ Digit c) (hn : n < 2 ^ 64) :
    parseUint (w ++ c :: r) n = if n * 10 ^ w.length + numVal w < 2 ^ 64 then 0 else 2 ^ 64 - 1 := by
  induction w generalizing n with
  | nil =>
    have : c.toNat < 48 ∨ 57 < c.toNat := by simp only [Digit] at hc; omega
    simp only [List.nil_append, parseUint, if_pos this, List.length_nil, Nat.pow_zero, Nat.mul_one, numVal, List.foldl_nil]
    rw [if_pos (by omega)]
  | cons d w ih =>
    have hdd := hd d (by simp)
    have hw : IsDigits w := fun x hx => hd x (by simp [hx])
    have h1 : ¬ (d.toNat < 48 ∨ 57 < d.toNat) := by omega
    have hpow := pow_len w
    simp only [List.cons_append, parseUint, if_neg h1]
    have e : n * 10 ^ (d :: w).length + numVal (d :: w) = (n * 10 + (d.toNat - 48)) * 10 ^ w.length + numVal w := by
      rw [numVal_cons, List.length_cons, Nat.pow_succ, Nat.add_mul, ← Nat.add_assoc, Nat.mul_assoc n 10, Nat.mul_comm 10]
    rw [e]
    have hge : n * 10 + (d.toNat - 48) ≤ (n * 10 + (d.toNat - 48)) * 10 ^ w.length := Nat.le_mul_of_pos_right _ hpow
    by_cases h2 : (2 ^ 64 - 1) / 10 + 1 ≤ n
    · rw [if_pos h2, if_neg (by omega)]
    · rw [if_neg h2]
      by_cases h3 : 2 ^ 64 ≤ n * 10 + (d.toNat - 48)
      · rw [if_pos h3, if_neg (by omega)]
      · rw [if_neg h3, ih _ hw (by omega)]

theorem takeWhile_all {p : UInt8 → Bool} : ∀ {w : Bytes}, (∀ b ∈ w, p b = true) → w.takeWhile p = w := by
  intro w
  induction w with
  | nil => intro _; rfl
  | cons b w ih => intro h; simp [List.takeWhile, h b (by simp), ih (fun x hx => h x (by simp [hx]))]

theorem takeWhile_split {p : UInt8 → Bool} : ∀ (w : Bytes), (∀ b ∈ w, p b = true) ∨ ∃ a c r, w = a ++ c :: r ∧ (∀ b ∈ a, p b = true) ∧ p c = false ∧ w.takeWhile p = a := by
  intro w
  induction w with
  | nil => left; simp
  | cons b w ih =>
    cases hb : p b with
    | false => right; exact ⟨[], b, w, rfl, by simp, hb, by simp [List.takeWhile, hb]⟩
    | true =>
      rcases ih with h | ⟨a, c, r, rfl, h1, h2, h3⟩
      · left; intro x hx; rcases List.mem_cons.mp hx with rfl | hx
        · exact hb
        · exact h x hx
      · right
        refine ⟨b :: a, c, r, rfl, ?_, h2, by simp [List.takeWhile, hb, h3]⟩
        intro x hx; rcases List.mem_cons.mp hx with rfl | hx
        · exact hb
        · exact h1 x hx

theorem parseUint_value (w : Bytes) : parseUint w 0 = lenValue w := by
  rcases takeWhile_split (p := fun b => decide (Digit b)) w with h | ⟨a, c, r, rfl, h1, h2, h3⟩
  · have hd : ∀ b ∈ w, Digit b := fun b hb => by simpa using h b hb
    have e := takeWhile_all h
    rw [parseUint_val w 0 (fun b hb => hd b hb) (by omega), lenValue, e, if_pos hd]
    simp only [Nat.zero_mul, Nat.zero_add]
    by_cases hv : numVal w < 2 ^ 64
    · rw [if_pos hv, if_neg (by omega)]
    · rw [if_neg hv, if_pos (by omega)]
  · have hc : ¬ Digit c := by simpa using h2
    have hd : ∀ b ∈ a, Digit b := fun b hb => by simpa using h1 b hb
    have hn : ¬ ∀ b ∈ a ++ c :: r, Digit b := fun h => hc (h c (by simp))
    rw [parseUint_stop a c r 0 (fun b hb => hd b hb) hc (by omega), lenValue, h3, if_neg hn]
    simp only [Nat.zero_mul, Nat.zero_add]
    by_cases hv : numVal a < 2 ^ 64
    · rw [if_pos hv, if_neg (by omega)]
    · rw [if_neg hv, if_pos (by omega)]

theorem pdigits_run {w rest : Bytes} (hw : ∀ b ∈ w, Digitish b) (h : ∀ b t, rest = b :: t → b ≠ 0 ∧ ¬ Digitish b) :
    pdigits ((w ++ rest).map some) = (w, rest.map some) := by
  induction w with
  | nil =>
    cases rest with
    | nil => rfl
    | cons b t =>
      obtain ⟨h0, hd⟩ := h b t rfl
      have : isDigit b = false := by
        cases hb : isDigit b with
        | false => rfl
        | true => exact absurd (digitish_is.mp hb) hd
      simp [pdigits, h0, this]
  | cons c w ih =>
    have hc := hw c (by simp)
    have h0 : c ≠ 0 := by rintro rfl; simp [Digitish] at hc
    simp only [List.cons_append, List.map_cons, pdigits, if_neg h0, digitish_is.mpr hc, if_true, ih fun b hb => hw b (by simp [hb])]

theorem pdigits_nul {w rest : Bytes} (hw : ∀ b ∈ w, Digitish b) : pdigits ((w ++ 0 :: rest).map some) = (w, rest.map some) := by
  induction w with
  | nil => simp [pdigits]
  | cons c w ih =>
    have hc := hw c (by simp)
    have h0 : c ≠ 0 := by rintro rfl; simp [Digitish] at hc
    simp only [List.cons_append, List.map_cons, pdigits, if_neg h0, digitish_is.mpr hc, if_true, ih fun b hb => hw b (by simp [hb])]

theorem pscan_lenText {x w rest : Bytes} (h : LenText x w rest) (ml : Nat) (rdy : Bool) :
    pscan ⟨x.map some, ml, rdy⟩ = (⟨.MSGLEN, w⟩, ⟨rest.map some, lenValue w, false⟩) := by
  cases h with
  | plain hc hw hr =>
    simp only [List.map_cons, pscan, pread, digit_nz.mpr hc, if_true, pdigits_run hw hr, parseUint_value]
  | nul hc hw =>
    simp only [List.map_cons, pscan, pread, digit_nz.mpr hc, if_true, pdigits_nul hw, parseUint_value]

/-- a stream that begins with a digit begins with a length -/
theorem lenText_exists {c : UInt8} {x : Bytes} (hc : Digit c) : ∃ w rest, LenText (c :: x) w rest := by
  rcases takeWhile_split (p := fun b => decide (Digitish b)) x with h | ⟨a, b, r, rfl, h1, h2, -⟩
  · refine ⟨c :: x, [], ?_⟩
    have := LenText.plain (w := x) (rest := []) hc (fun b hb => by simpa using h b hb) (by simp)
    rwa [List.append_nil] at this
  · by_cases h0 : b = 0
    · subst h0; exact ⟨c :: a, r, .nul hc fun b hb => by simpa using h1 b hb⟩
    · refine ⟨c :: a, b :: r, .plain hc (fun b hb => by simpa using h1 b hb) ?_⟩
      intro b' t e
      cases e
      exact ⟨h0, by simpa using h2⟩

theorem lenText_shorter {x w rest : Bytes} (h : LenText x w rest) : rest.length < x.length := by
  cases h <;> simp <;> omega

/-! ## what is found -/

theorem found_exists (x : Bytes) : ∃ tok, Found x tok := by
  cases x with
  | nil => exact ⟨_, .eof⟩
  | cons b x =>
    by_cases hd : Digit b
    · obtain ⟨w, rest, h⟩ := lenText_exists (x := x) hd
      exact ⟨_, .len h⟩
    by_cases h0 : b = 0
    · subst h0; exact ⟨_, .nul⟩
    by_cases h32 : b = 32
    · subst h32; exact ⟨_, .space⟩
    exact ⟨_, .other hd h0 h32⟩

/-- one token where a message cannot be -/
theorem pscan_found {x : Bytes} {tok : Token} (h : Found x tok) (ml : Nat) (rdy : Bool)
    (hm : rdy = false ∨ ml = 0 ∨ x.head? ≠ some 60) :
    (pscan ⟨x.map some, ml, rdy⟩).1 = tok ∧
      (pscan ⟨x.map some, ml, rdy⟩).2.msglen = (if tok.typ = .MSGLEN then lenValue tok.lit else ml) ∧
      (tok.typ = .WS → ∃ r, x = 32 :: r ∧ (pscan ⟨x.map some, ml, rdy⟩).2 = ⟨r.map some, ml, true⟩) := by
  cases h with
  | eof => exact ⟨rfl, rfl, by simp⟩
  | nul => exact ⟨rfl, rfl, by simp⟩
  | @space r => exact ⟨rfl, rfl, fun _ => ⟨r, rfl, rfl⟩⟩
  | len h => rw [pscan_lenText h]; exact ⟨rfl, rfl, by simp⟩
  | @other b x hd h0 h32 =>
    have h1 : isNonZeroDigit b = false := by
      cases hb : isNonZeroDigit b with
      | false => rfl
      | true => exact absurd (digit_nz.mp hb) hd
    have h2 : ¬ (b = 60 ∧ ml > 0 ∧ rdy = true) := by
      rintro ⟨rfl, a, b⟩
      rcases hm with h | h | h
      · rw [h] at b; simp at b
      · omega
      · simp at h
    simp only [List.map_cons, pscan, pread, h1, Bool.false_eq_true, if_false, if_neg h0, if_neg h32, if_neg h2]
    refine ⟨?_, ?_, ?_⟩ <;> simp

/-! ## the message -/

theorem front_all (n : Nat) (q : Bytes) : front n (q.map some) = q.take n := by
  have := front_somes n q []
  rw [List.append_nil] at this
  rw [this]
  cases n - q.length <;> simp [front]

theorem pscan_short {rest : Bytes} {n : Nat} (h1 : (60 :: rest).length < n) (h2 : n < 2 ^ 63) :
    (pscan ⟨(60 :: rest).map some, n, true⟩).1 = ⟨.EOF, 60 :: rest⟩ ∧ (pscan ⟨(60 :: rest).map some, n, true⟩).2.msglen = n := by
  have hf := front_all n (60 :: rest)
  rw [List.take_of_length_le (by omega)] at hf
  rw [List.map_cons] at hf
  have hz : isNonZeroDigit 60 = false := by decide
  simp only [List.map_cons, pscan, pread, hz, Bool.false_eq_true, if_false, show ¬ (60 : UInt8) = 0 by decide, show ¬ (60 : UInt8) = 32 by decide,
    show n > 0 by omega, and_self, if_true, if_pos h2, ppeek, hf, if_pos h1]

theorem pscan_huge {rest : Bytes} {n : Nat} (h : 2 ^ 63 ≤ n) :
    (pscan ⟨(60 :: rest).map some, n, true⟩).1 = ⟨.EOF, []⟩ ∧ (pscan ⟨(60 :: rest).map some, n, true⟩).2.msglen = n := by
  have hz : isNonZeroDigit 60 = false := by decide
  simp only [List.map_cons, pscan, pread, hz, Bool.false_eq_true, if_false, show ¬ (60 : UInt8) = 0 by decide, show ¬ (60 : UInt8) = 32 by decide,
    show n > 0 by omega, and_self, if_true, show ¬ n < 2 ^ 63 by omega]

theorem pscan_whole {m rest : Bytes} (h60 : m.head? = some 60) (h63 : m.length < 2 ^ 63) :
    pscan ⟨(m ++ rest).map some, m.length, true⟩ = (⟨.SYSLOGMSG, m⟩, ⟨rest.map some, 0, false⟩) := by
  rw [List.map_append]; exact pscan_msg m h60 h63 (rest.map some)

/-- without `<` there is no message -/
theorem pmsg_noLt (be : Bool) {m : Bytes} (h : m.head? ≠ some 60) : pmsg be m = ⟨none, some (.message ⟨.pri, 0⟩)⟩ := by
  have hn : ∀ t, m ≠ 60 :: t := by rintro t rfl; exact h rfl
  have := (Props.C57_refused_iff be false m none ⟨.pri, 0⟩).mpr ⟨none, .noLt hn, by cases be <;> rfl⟩
  rw [pmsg, this]; rfl

theorem found_lit {x : Bytes} {tok : Token} (h : Found x tok) (hx : x.head? ≠ some 60) : tok.lit.head? ≠ some 60 := by
  cases h with
  | eof => simp
  | nul => simp
  | space => simp
  | len h =>
    cases h with
    | plain hc => simp; rintro rfl; simp [Digit] at hc
    | nul hc => simp; rintro rfl; simp [Digit] at hc
  | other => simpa using hx

/-! ## results -/

theorem prun_emits {be : Bool} {max : Int} {x : Bytes} {rs : List Result} (h : Emits be max x rs) : prun be max (x.map some) = rs := by
  have frame : ∀ {x m rest : Bytes}, FrameAt max x m rest →
      prun be max (x.map some) = (if be = false ∧ (pmsg be m).err ≠ none then [⟨none, (pmsg be m).err⟩]
        else if rest = [] ∨ rest.head? = some 0 then [pmsg be m] else pmsg be m :: prun be max (rest.map some)) := by
    rintro x m rest ⟨w, h1, h2, h3, h4, h5⟩
    have hsh := lenText_shorter h1
    rw [prun, pscan_lenText h1]
    simp only []
    rw [if_neg (by simp), h2, if_neg (by rw [toInt_nat h4]; omega), List.map_cons, pscan_ws]
    simp only []
    rw [if_neg (by simp), pscan_whole h3 h4]
    simp only []
    rw [if_neg (by simp)]
    split
    · rfl
    · have : (pscan ⟨rest.map some, 0, false⟩).1.typ = .EOF ↔ (rest = [] ∨ rest.head? = some 0) := by
        rw [pscan_eof_iff, Ends]
        cases rest <;> simp
      by_cases hr : rest = [] ∨ rest.head? = some 0
      · rw [if_pos (this.mpr hr), if_pos hr]
      · rw [if_neg (fun h => hr (this.mp h)), if_neg hr, if_pos (by simp at hsh ⊢; omega)]
  have third : ∀ {x w rest : Bytes} {tok : Token} {n : Nat}, LenText x w (32 :: rest) → asInt (lenValue w) ≤ max →
      (pscan ⟨rest.map some, lenValue w, true⟩).1 = tok → (pscan ⟨rest.map some, lenValue w, true⟩).2.msglen = n → tok.typ ≠ .SYSLOGMSG →
      prun be max (x.map some) = (if (tok.lit.length : Int) < toInt n ∧ be = true then
        [⟨(pmsg be tok.lit).msg, some ((pmsg be tok.lit).err.getD (.notMsg tok n))⟩] else [⟨none, some (.notMsg tok n)⟩]) := by
    intro x w rest tok n h1 h2 h3 h4 h5
    rw [asInt_toInt] at h2
    rw [prun, pscan_lenText h1]
    simp only []
    rw [if_neg (by simp), if_neg (by omega), List.map_cons, pscan_ws]
    simp only []
    rw [if_neg (by simp), h3, h4, if_pos h5]
  induction h with
  | noLen hf ht =>
    rw [prun, (pscan_found hf 0 false (Or.inl rfl)).1]
    simp only []
    rw [if_pos ht]
  | tooLong hl ht =>
    rw [asInt_toInt] at ht
    rw [prun, pscan_lenText hl]
    simp only []
    rw [if_neg (by simp), if_pos ht]
  | noSpace hl hm hf ht =>
    rw [asInt_toInt] at hm
    rw [prun, pscan_lenText hl]
    simp only []
    rw [if_neg (by simp), if_neg (by omega), (pscan_found hf _ false (Or.inl rfl)).1, if_pos ht]
  | @noMsg x w rest tok n hl hm hf hz hn hb =>
    obtain ⟨g1, g2, -⟩ := pscan_found hf (lenValue w) true (Or.inr hz)
    rw [← hn] at g2
    have ht : tok.typ ≠ .SYSLOGMSG := by cases hf <;> simp
    rw [third hl hm g1 g2 ht, if_neg]
    rw [← asInt_toInt]
    rintro ⟨a, b⟩
    rcases hb with hb | hb
    · rw [hb] at b; simp at b
    · omega
  | @noMsgBest x w rest tok n hl hm hf hz hn hbe hb =>
    obtain ⟨g1, g2, -⟩ := pscan_found hf (lenValue w) true (Or.inr hz)
    rw [← hn] at g2
    have ht : tok.typ ≠ .SYSLOGMSG := by cases hf <;> simp
    rw [third hl hm g1 g2 ht, if_pos ⟨by rw [← asInt_toInt]; exact hb, hbe⟩]
    have hlit : tok.lit.head? ≠ some 60 := by
      rcases hz with hz | hz
      · intro hc
        have hx : rest.head? = some 60 := Classical.byContradiction fun h => found_lit hf h hc
        have h1 : tok.lit.length = 1 ∧ n = 0 := by
          cases hf with
          | eof => simp at hx
          | nul => simp at hx
          | space => simp at hx
          | len h =>
            cases h with
            | plain hd => simp at hx; subst hx; exact absurd hd (by decide)
            | nul hd => simp at hx; subst hx; exact absurd hd (by decide)
          | other => simp only [if_neg (show ¬ TokenType.ILLEGAL = .MSGLEN by decide)] at hn; exact ⟨rfl, by rw [hn, hz]⟩
        rw [h1.1, h1.2] at hb
        simp [asInt] at hb
      · exact found_lit hf hz
    rw [pmsg_noLt be hlit]; rfl
  | @huge x w rest hl hh hm =>
    obtain ⟨g1, g2⟩ := pscan_huge (rest := _) hh
    rw [third hl hm g1 g2 (by simp), if_neg]
    rintro ⟨a, -⟩
    rw [toInt, if_neg (by omega)] at a
    simp only [List.length_nil] at a
    have hw : ∀ w, lenValue w < 2 ^ 64 := by
      intro w; rw [← parseUint_value]
      rcases takeWhile_split (p := fun b => decide (Digit b)) w with h | ⟨a, c, r, rfl, h1, h2, h3⟩
      · rw [parseUint_val w 0 (fun b hb => of_decide_eq_true (h b hb)) (by omega)]; split <;> omega
      · rw [parseUint_stop a c r 0 (fun b hb => of_decide_eq_true (h1 b hb)) (by simpa using h2) (by omega)]; split <;> omega
    have := hw
    have := hw w
    omega
  | @short x w rest hl hs h63 hm =>
    obtain ⟨g1, g2⟩ := pscan_short hs h63
    rw [third hl hm g1 g2 (by simp)]
    have hlt : (((60 :: rest : Bytes).length : Nat) : Int) < toInt (lenValue w) := by rw [toInt_nat h63]; exact Int.ofNat_lt.mpr hs
    cases be with
    | true => rw [if_pos ⟨hlt, rfl⟩]; rfl
    | false => rw [if_neg (by simp)]; rfl
  | wrong hf hb he =>
    rw [msgResult_eq] at he
    rw [frame hf, if_pos ⟨hb, by rw [he]; simp⟩, he]
  | last hf hok hr =>
    rw [msgResult_eq] at hok ⊢
    rw [frame hf, if_neg, if_pos hr]
    rintro ⟨a, b⟩
    rcases hok with h | h
    · rw [h] at a; simp at a
    · exact b h
  | more hf hok hr h0 _ ih =>
    rw [msgResult_eq] at hok ⊢
    rw [frame hf, if_neg, if_neg, ih]
    · simp [hr, h0]
    · rintro ⟨a, b⟩
      rcases hok with h | h
      · rw [h] at a; simp at a
      · exact b h

/-- every stream gives something -/
theorem emits_exists (be : Bool) (max : Int) : ∀ (n : Nat) (x : Bytes), x.length ≤ n → ∃ rs, Emits be max x rs := by
  intro n
  induction n with
  | zero =>
    intro x hx
    have : x = [] := List.length_eq_zero_iff.mp (by omega)
    subst this
    exact ⟨_, .noLen .eof (by simp)⟩
  | succ n ih =>
    intro x hx
    obtain ⟨tok, hf⟩ := found_exists x
    by_cases ht : tok.typ ≠ .MSGLEN
    · exact ⟨_, .noLen hf ht⟩
    obtain ⟨w, rest, hl⟩ : ∃ w rest, LenText x w rest := by
      cases hf with
      | len h => exact ⟨_, _, h⟩
      | eof => simp at ht
      | nul => simp at ht
      | space => simp at ht
      | other => simp at ht
    by_cases hm : asInt (lenValue w) > max
    · exact ⟨_, .tooLong hl hm⟩
    have hm' : asInt (lenValue w) ≤ max := by omega
    obtain ⟨tok2, hf2⟩ := found_exists rest
    by_cases ht2 : tok2.typ ≠ .WS
    · exact ⟨_, .noSpace hl hm' hf2 ht2⟩
    obtain ⟨r, rfl⟩ : ∃ r, rest = 32 :: r := by
      cases hf2 with
      | space => exact ⟨_, rfl⟩
      | eof => simp at ht2
      | nul => simp at ht2
      | len => simp at ht2
      | other => simp at ht2
    by_cases hz : lenValue w = 0 ∨ r.head? ≠ some 60
    · obtain ⟨tok3, hf3⟩ := found_exists r
      by_cases hb : be = false ∨ asInt (if tok3.typ = .MSGLEN then lenValue tok3.lit else lenValue w) ≤ tok3.lit.length
      · exact ⟨_, .noMsg hl hm' hf3 hz rfl hb⟩
      · have : be = true ∧ (tok3.lit.length : Int) < asInt (if tok3.typ = .MSGLEN then lenValue tok3.lit else lenValue w) := by
          refine ⟨?_, ?_⟩
          · cases be with
            | true => rfl
            | false => exact absurd (Or.inl rfl) hb
          · have := fun h => hb (Or.inr h)
            omega
        exact ⟨_, .noMsgBest hl hm' hf3 hz rfl this.1 this.2⟩
    have hz0 : lenValue w ≠ 0 := fun h => hz (Or.inl h)
    obtain ⟨t, rfl⟩ : ∃ t, r = 60 :: t := by
      cases r with
      | nil => exact absurd (Or.inr (by simp)) hz
      | cons b t =>
        have hb : b = 60 := Classical.byContradiction fun h => hz (Or.inr (by simpa using h))
        exact ⟨t, by rw [hb]⟩
    by_cases hh : 2 ^ 63 ≤ lenValue w
    · exact ⟨_, .huge hl hh hm'⟩
    by_cases hs : (60 :: t).length < lenValue w
    · exact ⟨_, .short hl hs (by omega) hm'⟩
    have hfr : FrameAt max x ((60 :: t).take (lenValue w)) ((60 :: t).drop (lenValue w)) := by
      have hlen : ((60 :: t).take (lenValue w)).length = lenValue w := by rw [List.length_take]; omega
      refine ⟨w, ?_, hlen.symm, ?_, by omega, ?_⟩
      · rw [List.take_append_drop]; exact hl
      · obtain ⟨k, hk⟩ := Nat.exists_eq_succ_of_ne_zero hz0
        rw [hk]; rfl
      · rw [hlen]
        rw [asInt, if_pos (by omega)] at hm'
        exact hm'
    by_cases hok : be = true ∨ (msgResult be ((60 :: t).take (lenValue w))).err = none
    · by_cases hr : (60 :: t).drop (lenValue w) = [] ∨ ((60 :: t).drop (lenValue w)).head? = some 0
      · exact ⟨_, .last hfr hok hr⟩
      · have hsh := lenText_shorter hl
        obtain ⟨rs, hrs⟩ := ih ((60 :: t).drop (lenValue w)) (by simp only [List.length_drop, List.length_cons] at hsh ⊢; omega)
        exact ⟨_, .more hfr hok (fun h => hr (Or.inl h)) (fun h => hr (Or.inr h)) hrs⟩
    · cases he : (msgResult be ((60 :: t).take (lenValue w))).err with
      | none => exact absurd (Or.inr he) hok
      | some e =>
        refine ⟨_, .wrong hfr ?_ he⟩
        cases be with
        | false => rfl
        | true => exact absurd (Or.inl rfl) hok

theorem emits_iff {be : Bool} {max : Int} {x : Bytes} {rs : List Result} : Emits be max x rs ↔ prun be max (x.map some) = rs := by
  refine ⟨prun_emits, ?_⟩
  rintro rfl
  obtain ⟨rs, h⟩ := emits_exists be max x.length x (Nat.le_refl _)
  rw [prun_emits h]; exact h

end Verif.Octet
