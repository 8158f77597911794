import Verif.Octet.Spec

/-! # A read error in the stream -/

namespace Verif.Octet
open Verif.Spec

/-- an error ends a number like the end of the stream, and is swallowed -/
theorem pdigits_err (x : Bytes) (l : Events) :
    (pdigits (x.map some ++ none :: l)).1 = (pdigits (x.map some)).1 ∧
      (((∀ b ∈ x, Digitish b) ∧ (pdigits (x.map some ++ none :: l)).2 = l) ∨
        ∃ x' : Bytes, (pdigits (x.map some)).2 = x'.map some ∧ (pdigits (x.map some ++ none :: l)).2 = x'.map some ++ none :: l) := by
  induction x with
  | nil => exact ⟨rfl, Or.inl ⟨by simp, rfl⟩⟩
  | cons b x ih =>
    simp only [List.map_cons, List.cons_append, pdigits]
    by_cases h0 : b = 0
    · simp only [if_pos h0]
      exact ⟨trivial, Or.inr ⟨x, rfl, rfl⟩⟩
    · simp only [if_neg h0]
      by_cases hd : isDigit b = true
      · simp only [if_pos hd]
        refine ⟨by rw [ih.1], ?_⟩
        rcases ih.2 with ⟨h1, h2⟩ | h1
        · left
          refine ⟨?_, h2⟩
          intro c hc
          rcases List.mem_cons.mp hc with rfl | hc
          · exact digitish_is.mp hd
          · exact h1 c hc
        · exact Or.inr h1
      · simp only [if_neg hd]
        exact ⟨trivial, Or.inr ⟨b :: x, rfl, rfl⟩⟩

/-- one token, with or without an error after the bytes -/
theorem pscan_err (x : Bytes) (l : Events) (ml : Nat) (rdy : Bool) :
    (pscan ⟨x.map some ++ none :: l, ml, rdy⟩).1 = (pscan ⟨x.map some, ml, rdy⟩).1 ∧
    (pscan ⟨x.map some ++ none :: l, ml, rdy⟩).2.msglen = (pscan ⟨x.map some, ml, rdy⟩).2.msglen ∧
    ((pscan ⟨x.map some, ml, rdy⟩).1.typ ≠ .EOF →
      (((∃ c w, x = c :: w ∧ Digit c ∧ ∀ b ∈ w, Digitish b) ∧ (pscan ⟨x.map some ++ none :: l, ml, rdy⟩).2.inp = l) ∨
        ∃ x' : Bytes, (pscan ⟨x.map some, ml, rdy⟩).2.inp = x'.map some ∧
          (pscan ⟨x.map some ++ none :: l, ml, rdy⟩).2 = { (pscan ⟨x.map some, ml, rdy⟩).2 with inp := x'.map some ++ none :: l })) := by
  cases x with
  | nil => exact ⟨rfl, rfl, by simp [pscan, pread]⟩
  | cons b x =>
    obtain ⟨d1, d2⟩ := pdigits_err x l
    simp only [List.map_cons, List.cons_append, pscan, pread]
    by_cases hz : isNonZeroDigit b = true
    · simp only [if_pos hz, d1]
      refine ⟨trivial, trivial, fun _ => ?_⟩
      rcases d2 with ⟨h1, h2⟩ | ⟨x', h1, h2⟩
      · exact Or.inl ⟨⟨b, x, rfl, digit_nz.mp hz, h1⟩, h2⟩
      · exact Or.inr ⟨x', h1, by rw [h2]⟩
    · simp only [if_neg hz]
      by_cases h0 : b = 0
      · simp only [if_pos h0]
        exact ⟨trivial, trivial, by simp⟩
      simp only [if_neg h0]
      by_cases h32 : b = 32
      · simp only [if_pos h32]
        exact ⟨trivial, trivial, fun _ => Or.inr ⟨x, rfl, rfl⟩⟩
      simp only [if_neg h32]
      by_cases h60 : b = 60 ∧ ml > 0 ∧ rdy = true
      · simp only [if_pos h60]
        by_cases h63 : ml < 2 ^ 63
        · simp only [if_pos h63]
          have hf : front ml (some 60 :: (x.map some ++ none :: l)) = front ml (some 60 :: x.map some) := by
            have e1 := front_somes ml (60 :: x) (none :: l)
            have e2 := front_all ml (60 :: x)
            simp only [List.map_cons, List.cons_append] at e1 e2
            rw [e1, e2, front_none, List.append_nil]
          by_cases hs : (front ml (some 60 :: x.map some)).length < ml
          · simp only [ppeek, hf, if_pos hs]
            exact ⟨trivial, trivial, by simp⟩
          · simp only [ppeek, hf, if_neg hs]
            refine ⟨trivial, trivial, fun _ => Or.inr ⟨(60 :: x).drop ml, ?_, ?_⟩⟩
            · rw [List.map_drop]; rfl
            · have e2 := front_all ml (60 :: x)
              simp only [List.map_cons] at e2
              rw [e2] at hs
              have hle : ml ≤ ((60 :: x).map some : Events).length := by
                simp only [List.length_map]
                simp only [List.length_take] at hs; omega
              congr 1
              have := List.drop_append_of_le_length (l₂ := none :: l) hle
              rw [List.map_drop, ← this]; rfl
        · simp only [if_neg h63]
          exact ⟨trivial, trivial, by simp⟩
      · simp only [if_neg h60]
        exact ⟨trivial, trivial, fun _ => Or.inr ⟨x, rfl, rfl⟩⟩

/-- one token, with an error or with a NUL after the bytes, none of which starts a message -/
theorem pdigits_swallow (w : Bytes) (hw : ∀ b ∈ w, Digitish b) (l : Events) :
    pdigits (w.map some ++ none :: l) = pdigits (w.map some ++ some 0 :: l) := by
  induction w with
  | nil => rfl
  | cons c w ih =>
    have hc := hw c (by simp)
    have h0 : c ≠ 0 := by rintro rfl; simp [Digitish] at hc
    simp only [List.map_cons, List.cons_append, pdigits, if_neg h0, digitish_is.mpr hc, if_true, ih fun b hb => hw b (by simp [hb])]

theorem pscan_swallow {c : UInt8} {w : Bytes} (hc : Digit c) (hw : ∀ b ∈ w, Digitish b) (l : Events) :
    pscan ⟨(c :: w).map some ++ none :: l, 0, false⟩ = pscan ⟨(c :: w).map some ++ some 0 :: l, 0, false⟩ := by
  simp only [List.map_cons, List.cons_append, pscan, pread, digit_nz.mpr hc, if_true, pdigits_swallow w hw l]

/-- a length, with anything after what follows it -/
theorem pscan_lenText_app {x w rest : Bytes} (h : LenText x w rest)
    (hne : rest = [] → ¬ ∃ c w, x = c :: w ∧ Digit c ∧ ∀ b ∈ w, Digitish b) (l : Events) (ml : Nat) (rdy : Bool) :
    pscan ⟨x.map some ++ l, ml, rdy⟩ = (⟨.MSGLEN, w⟩, ⟨rest.map some ++ l, lenValue w, false⟩) := by
  have key : ∀ (w rest : Bytes), (∀ b ∈ w, Digitish b) → rest ≠ [] → (∀ b t, rest = b :: t → b ≠ 0 ∧ ¬ Digitish b) →
      pdigits ((w ++ rest).map some ++ l) = (w, rest.map some ++ l) := by
    intro w rest hw hne hr
    induction w with
    | nil =>
      cases rest with
      | nil => exact absurd rfl hne
      | cons b t =>
        obtain ⟨h0, hd⟩ := hr b t rfl
        have : isDigit b = false := by
          cases hb : isDigit b with
          | false => rfl
          | true => exact absurd (digitish_is.mp hb) hd
        simp [pdigits, h0, this]
    | cons c w ih =>
      have hc := hw c (by simp)
      have h0 : c ≠ 0 := by rintro rfl; simp [Digitish] at hc
      simp only [List.cons_append, List.map_cons, pdigits, if_neg h0, digitish_is.mpr hc, if_true, ih fun b hb => hw b (by simp [hb])]
  have key2 : ∀ (w rest : Bytes), (∀ b ∈ w, Digitish b) → pdigits ((w ++ 0 :: rest).map some ++ l) = (w, rest.map some ++ l) := by
    intro w rest hw
    induction w with
    | nil => simp [pdigits]
    | cons c w ih =>
      have hc := hw c (by simp)
      have h0 : c ≠ 0 := by rintro rfl; simp [Digitish] at hc
      simp only [List.cons_append, List.map_cons, pdigits, if_neg h0, digitish_is.mpr hc, if_true, ih fun b hb => hw b (by simp [hb])]
  cases h with
  | plain hc hw hr =>
    have hne' : rest ≠ [] := by
      rintro rfl
      exact hne rfl ⟨_, _, rfl, hc, by simpa using hw⟩
    simp only [List.map_cons, List.cons_append, pscan, pread, digit_nz.mpr hc, if_true, key _ _ hw hne' hr, parseUint_value]
  | nul hc hw =>
    simp only [List.map_cons, List.cons_append, pscan, pread, digit_nz.mpr hc, if_true, key2 _ _ hw, parseUint_value]

/-- a whole frame, with anything after it -/
theorem prun_frameAt {be : Bool} {max : Int} {x m rest : Bytes} (h : FrameAt max x m rest) (l : Events) :
    prun be max (x.map some ++ l) = (if be = false ∧ (pmsg be m).err ≠ none then [⟨none, (pmsg be m).err⟩]
      else if Ends (rest.map some ++ l) then [pmsg be m] else pmsg be m :: prun be max (rest.map some ++ l)) := by
  obtain ⟨w, h1, h2, h3, h4, h5⟩ := h
  have hsh := lenText_shorter h1
  rw [prun, pscan_lenText_app h1 (by simp)]
  simp only []
  rw [if_neg (by simp), h2, if_neg (by rw [toInt_nat h4]; omega), List.map_cons, List.cons_append, pscan_ws]
  simp only []
  rw [if_neg (by simp), List.map_append, List.append_assoc, pscan_msg m h3 h4]
  simp only []
  rw [if_neg (by simp)]
  split
  · rfl
  · by_cases hr : Ends (rest.map some ++ l)
    · rw [if_pos ((pscan_eof_iff _).mpr hr), if_pos hr]
    · rw [if_neg (fun h => hr ((pscan_eof_iff _).mp h)), if_neg hr, if_pos (by simp at hsh ⊢; omega)]

theorem prun_swallow {be : Bool} {max : Int} {x : Bytes} (h : AtLength be max x) (l : Events) :
    prun be max (x.map some ++ none :: l) = prun be max (x.map some ++ some 0 :: l) := by
  induction h with
  | @here c w hc hw =>
    have hs := pscan_swallow hc hw l
    have hlen : ((c :: w).map some ++ none :: l).length = ((c :: w).map some ++ some 0 :: l).length := by simp
    rw [prun, prun, hs, hlen]
  | @more x m rest hf hok h1 h2 _ ih =>
    have hen : ∀ y : Events, Ends (rest.map some ++ y) ↔ False := by
      intro y
      cases rest with
      | nil => exact absurd rfl h1
      | cons b t => simp only [List.head?_cons, ne_eq, Option.some.injEq] at h2; simp [Ends, h2]
    rw [prun_frameAt hf, prun_frameAt hf, ih]
    simp only [hen]

theorem prun_error_ends {be : Bool} {max : Int} {x : Bytes} {rs : List Result} (h : Emits be max x rs) (hx : ¬ AtLength be max x) (l : Events) :
    prun be max (x.map some ++ none :: l) = rs := by
  have hd : ∀ {x : Bytes}, ¬ AtLength be max x → ¬ ∃ c w, x = c :: w ∧ Digit c ∧ ∀ b ∈ w, Digitish b := by
    rintro x hx ⟨c, w, rfl, hc, hw⟩
    exact hx (.here hc hw)
  have third : ∀ {x w rest : Bytes} {tok : Token} {n : Nat}, LenText x w (32 :: rest) → asInt (lenValue w) ≤ max →
      (pscan ⟨rest.map some, lenValue w, true⟩).1 = tok → (pscan ⟨rest.map some, lenValue w, true⟩).2.msglen = n → tok.typ ≠ .SYSLOGMSG →
      prun be max (x.map some ++ none :: l) = prun be max (x.map some) := by
    intro x w rest tok n h1 h2 h3 h4 h5
    rw [asInt_toInt] at h2
    obtain ⟨g1, g2, -⟩ := pscan_err rest l (lenValue w) true
    have e : ∀ y : Events, pscan ⟨x.map some ++ y, 0, false⟩ = (⟨.MSGLEN, w⟩, ⟨some 32 :: (rest.map some ++ y), lenValue w, false⟩) :=
      fun y => pscan_lenText_app h1 (by simp) y 0 false
    have go : ∀ (y z : Events), pscan ⟨z, 0, false⟩ = (⟨.MSGLEN, w⟩, ⟨some 32 :: y, lenValue w, false⟩) →
        (pscan ⟨y, lenValue w, true⟩).1 = tok → (pscan ⟨y, lenValue w, true⟩).2.msglen = n →
        prun be max z = (if (tok.lit.length : Int) < toInt n ∧ be = true then
          [⟨(pmsg be tok.lit).msg, some ((pmsg be tok.lit).err.getD (.notMsg tok n))⟩] else [⟨none, some (.notMsg tok n)⟩]) := by
      intro y z hz k1 k2
      rw [prun, hz]
      simp only []
      rw [if_neg (by simp), if_neg (by omega), pscan_ws]
      simp only []
      rw [if_neg (by simp), k1, k2, if_pos h5]
    have e0 := e []
    simp only [List.append_nil] at e0
    rw [go _ _ (e _) (g1.trans h3) (g2.trans h4), go _ _ e0 h3 h4]
  induction h with
  | noLen hf ht =>
    rw [prun, (pscan_err _ l 0 false).1, (pscan_found hf 0 false (Or.inl rfl)).1]
    simp only []
    rw [if_pos ht]
  | tooLong hl ht =>
    rw [asInt_toInt] at ht
    obtain ⟨g1, g2, -⟩ := pscan_err _ l 0 false
    rw [prun, g1, g2, pscan_lenText hl]
    simp only []
    rw [if_neg (by simp), if_pos ht]
  | @noSpace x w rest tok hl hm hf ht =>
    rw [asInt_toInt] at hm
    rw [prun, pscan_lenText_app hl (fun _ => hd hx)]
    simp only []
    rw [if_neg (by simp), if_neg (by omega), (pscan_err rest l _ false).1, (pscan_found hf _ false (Or.inl rfl)).1, if_pos ht]
  | @noMsg x w rest tok n hl hm hf hz hn hb =>
    obtain ⟨g1, g2, -⟩ := pscan_found hf (lenValue w) true (Or.inr hz)
    have ht : tok.typ ≠ .SYSLOGMSG := by cases hf <;> simp
    rw [third hl hm g1 g2 ht]
    exact prun_emits (.noMsg hl hm hf hz hn hb)
  | @noMsgBest x w rest tok n hl hm hf hz hn hbe hb =>
    obtain ⟨g1, g2, -⟩ := pscan_found hf (lenValue w) true (Or.inr hz)
    have ht : tok.typ ≠ .SYSLOGMSG := by cases hf <;> simp
    rw [third hl hm g1 g2 ht]
    exact prun_emits (.noMsgBest hl hm hf hz hn hbe hb)
  | @huge x w rest hl hh hm =>
    obtain ⟨g1, g2⟩ := pscan_huge (rest := rest) hh
    rw [third hl hm g1 g2 (by simp)]
    exact prun_emits (.huge hl hh hm)
  | @short x w rest hl hs h63 hm =>
    obtain ⟨g1, g2⟩ := pscan_short hs h63
    rw [third hl hm g1 g2 (by simp)]
    exact prun_emits (.short hl hs h63 hm)
  | wrong hf hb he =>
    rw [msgResult_eq] at he
    rw [prun_frameAt hf, if_pos ⟨hb, by rw [he]; simp⟩, he]
  | @last x m rest hf hok hr =>
    rw [msgResult_eq] at hok ⊢
    have hen : Ends (rest.map some ++ none :: l) := by
      rcases hr with rfl | hr
      · simp [Ends]
      · cases rest with
        | nil => simp at hr
        | cons b t => simp only [List.head?_cons, Option.some.injEq] at hr; simp [Ends, hr]
    rw [prun_frameAt hf, if_neg, if_pos hen]
    rintro ⟨a, b⟩
    rcases hok with h | h
    · rw [h] at a; simp at a
    · exact b h
  | @more x m rest rs hf hok hr h0 hem ih =>
    have hen : ¬ Ends (rest.map some ++ none :: l) := by
      cases rest with
      | nil => exact absurd rfl hr
      | cons b t => simp only [List.head?_cons, ne_eq, Option.some.injEq] at h0; simp [Ends, h0]
    have hx' : ¬ AtLength be max rest := fun h => hx (.more hf hok hr h0 h)
    rw [msgResult_eq] at hok ⊢
    rw [prun_frameAt hf, if_neg, if_neg hen, ih hx']
    rintro ⟨a, b⟩
    rcases hok with h | h
    · rw [h] at a; simp at a
    · exact b h

end Verif.Octet
