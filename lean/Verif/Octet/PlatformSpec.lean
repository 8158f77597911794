import Verif.Octet.Platform

/-! # `prunB` and the specification of streams on any platform -/

namespace Verif.Octet
open Verif.Spec

theorem asIntOn_wrap (bits n : Nat) : asIntOn bits n = wrapOn bits n := rfl

/-- the platforms differ only where a message is read -/
theorem pscanB_eq (bits : Nat) (s : PS) (h : s.ready = false ∨ s.msglen = 0 ∨ (pread s.inp).1 ≠ some 60) : pscanB bits s = pscan s := by
  unfold pscanB pscan
  cases hp : pread s.inp with
  | mk o r =>
    cases o with
    | none => rfl
    | some b =>
      have hn : ¬ (b = 60 ∧ s.msglen > 0 ∧ s.ready = true) := by
        rintro ⟨h1, h2, h3⟩
        rcases h with h | h | h
        · rw [h] at h3; simp at h3
        · omega
        · rw [hp, h1] at h; exact h rfl
      simp only [if_neg hn]

theorem pread_map (x : Bytes) : (pread (x.map some)).1 = x.head? := by cases x <;> rfl

theorem pscanB_first (bits : Nat) (l : Events) (ml : Nat) : pscanB bits ⟨l, ml, false⟩ = pscan ⟨l, ml, false⟩ := pscanB_eq bits _ (Or.inl rfl)

theorem pscanB_msg (bits : Nat) {x : Bytes} {n : Nat} (hn : n ≠ 0) (h60 : x.head? = some 60) :
    pscanB bits ⟨x.map some, n, true⟩ =
      if 0 ≤ wrapOn bits n then
        if x.length < (wrapOn bits n).toNat then (⟨.EOF, x⟩, ⟨(ppeek (wrapOn bits n).toNat (x.map some)).2.2, n, true⟩)
        else (⟨.SYSLOGMSG, x.take (wrapOn bits n).toNat⟩, ⟨(x.drop (wrapOn bits n).toNat).map some, 0, false⟩)
      else (⟨.EOF, []⟩, ⟨x.map some, n, true⟩) := by
  cases x with
  | nil => simp at h60
  | cons b r =>
    have hb : b = 60 := by simpa using h60
    subst hb
    have hz : isNonZeroDigit 60 = false := by decide
    have hf := front_all (wrapOn bits n).toNat (60 :: r)
    rw [List.map_cons] at hf
    simp only [List.map_cons, pscanB, pread, hz, Bool.false_eq_true, if_false, show ¬ (60 : UInt8) = 0 by decide, show ¬ (60 : UInt8) = 32 by decide,
      show n > 0 by omega, and_self, if_true]
    generalize wrapOn bits n = z at *
    split
    · by_cases hs : (60 :: r : Bytes).length < z.toNat
      · rw [if_pos hs]
        rw [List.take_of_length_le (by omega)] at hf
        simp only [ppeek, hf, if_pos hs]
      · rw [if_neg hs]
        have hl : ((60 :: r : Bytes).take z.toNat).length = z.toNat := by rw [List.length_take]; omega
        simp only [ppeek, hf, hl, Nat.lt_irrefl, if_false]
        rw [List.map_drop, List.map_cons]
    · rfl

theorem prunB_emits {bits : Nat} {go be : Bool} {max : Int} {x : Bytes} {rs : List Result} (h : EmitsOn bits go be max x rs) :
    prunB bits go be max (x.map some) = rs := by
  have frame : ∀ {x m rest : Bytes}, FrameOn bits max x m rest →
      prunB bits go be max (x.map some) = (if go = false ∧ (pmsg be m).err ≠ none then [⟨none, (pmsg be m).err⟩]
        else if rest = [] ∨ rest.head? = some 0 then [pmsg be m] else pmsg be m :: prunB bits go be max (rest.map some)) := by
    rintro x m rest ⟨w, h1, h2, h3, h4, h5⟩
    have hsh := lenText_shorter h1
    rw [asIntOn_wrap] at h3
    rw [prunB, pscanB_first, pscan_lenText h1]
    simp only []
    rw [if_neg (by simp), h3, if_neg (by omega), pscanB_first, List.map_cons, pscan_ws]
    simp only []
    have e := pscanB_msg bits h2 h4
    rw [h3, if_pos (by omega), if_neg (by rw [List.length_append, Int.toNat_natCast]; omega), Int.toNat_natCast, List.take_left' rfl,
      List.drop_left' rfl] at e
    rw [if_neg (by simp), e]
    simp only []
    rw [if_neg (by simp), pscanB_first]
    split
    · rfl
    · have : (pscan ⟨rest.map some, 0, false⟩).1.typ = .EOF ↔ (rest = [] ∨ rest.head? = some 0) := by
        rw [pscan_eof_iff, Ends]
        cases rest <;> simp
      by_cases hr : rest = [] ∨ rest.head? = some 0
      · rw [if_pos (this.mpr hr), if_pos hr]
      · rw [if_neg (fun h => hr (this.mp h)), if_neg hr, if_pos (by simp at hsh ⊢; omega)]
  have third : ∀ {x w rest : Bytes} {tok : Token} {n : Nat}, LenText x w (32 :: rest) → asIntOn bits (lenValue w) ≤ max →
      (pscanB bits ⟨rest.map some, lenValue w, true⟩).1 = tok → (pscanB bits ⟨rest.map some, lenValue w, true⟩).2.msglen = n → tok.typ ≠ .SYSLOGMSG →
      prunB bits go be max (x.map some) = (if (tok.lit.length : Int) < wrapOn bits n ∧ go = true then
        [⟨(pmsg be tok.lit).msg, some ((pmsg be tok.lit).err.getD (.notMsg tok n))⟩] else [⟨none, some (.notMsg tok n)⟩]) := by
    intro x w rest tok n h1 h2 h3 h4 h5
    rw [asIntOn_wrap] at h2
    rw [prunB, pscanB_first, pscan_lenText h1]
    simp only []
    rw [if_neg (by simp), if_neg (by omega), pscanB_first, List.map_cons, pscan_ws]
    simp only []
    rw [if_neg (by simp), h3, h4, if_pos h5]
  have other : ∀ {rest : Bytes} {tok : Token} {ml : Nat}, Found rest tok → (ml = 0 ∨ rest.head? ≠ some 60) →
      (pscanB bits ⟨rest.map some, ml, true⟩).1 = tok ∧
      (pscanB bits ⟨rest.map some, ml, true⟩).2.msglen = (if tok.typ = .MSGLEN then lenValue tok.lit else ml) := by
    intro rest tok ml hf hz
    rw [pscanB_eq bits _ (Or.inr (by rw [pread_map]; exact hz))]
    obtain ⟨g1, g2, -⟩ := pscan_found hf ml true (Or.inr hz)
    exact ⟨g1, g2⟩
  induction h with
  | noLen hf ht =>
    rw [prunB, pscanB_first, (pscan_found hf 0 false (Or.inl rfl)).1]
    simp only []
    rw [if_pos ht]
  | tooLong hl ht =>
    rw [asIntOn_wrap] at ht
    rw [prunB, pscanB_first, pscan_lenText hl]
    simp only []
    rw [if_neg (by simp), if_pos ht]
  | noSpace hl hm hf ht =>
    rw [asIntOn_wrap] at hm
    rw [prunB, pscanB_first, pscan_lenText hl]
    simp only []
    rw [if_neg (by simp), if_neg (by omega), pscanB_first, (pscan_found hf _ false (Or.inl rfl)).1, if_pos ht]
  | @noMsg x w rest tok n hl hm hf hz hn hb =>
    obtain ⟨g1, g2⟩ := other hf hz
    rw [← hn] at g2
    have ht : tok.typ ≠ .SYSLOGMSG := by cases hf <;> simp
    rw [third hl hm g1 g2 ht, if_neg]
    rw [← asIntOn_wrap]
    rintro ⟨a, b⟩
    rcases hb with hb | hb
    · rw [hb] at b; simp at b
    · omega
  | @noMsgBest x w rest tok n hl hm hf hz hn hbe hb =>
    obtain ⟨g1, g2⟩ := other hf hz
    rw [← hn] at g2
    have ht : tok.typ ≠ .SYSLOGMSG := by cases hf <;> simp
    rw [third hl hm g1 g2 ht, if_pos ⟨by rw [← asIntOn_wrap]; exact hb, hbe⟩]
    have hlit : tok.lit.head? ≠ some 60 := by
      rcases hz with hz | hz
      · intro hc
        have hx : rest.head? = some 60 := Classical.byContradiction fun h => found_lit hf h hc
        have h1 : tok.lit.length = 1 ∧ n = 0 := by
          cases hf with
          | eof => simp at hx
          | nul => simp at hx
          | space => simp at hx
          | len h =>
            cases h with
            | plain hd => simp at hx; subst hx; exact absurd hd (by decide)
            | nul hd => simp at hx; subst hx; exact absurd hd (by decide)
          | other => simp only [if_neg (show ¬ TokenType.ILLEGAL = .MSGLEN by decide)] at hn; exact ⟨rfl, by rw [hn, hz]⟩
        rw [h1.1, h1.2] at hb
        simp [asIntOn] at hb
      · exact found_lit hf hz
    rw [pmsg_noLt be hlit]; rfl
  | @negative x w rest hl hneg hm =>
    have h0 : lenValue w ≠ 0 := by intro h; rw [h] at hneg; simp [asIntOn] at hneg
    have e := pscanB_msg bits (x := 60 :: rest) h0 rfl
    rw [asIntOn_wrap] at hneg
    rw [if_neg (by omega)] at e
    rw [third hl hm (congrArg Prod.fst e) (congrArg (fun q => q.2.msglen) e) (by simp), if_neg]
    rintro ⟨a, -⟩
    simp only [List.length_nil] at a
    omega
  | @short x w rest hl hs hm =>
    have h0 : lenValue w ≠ 0 := by intro h; rw [h] at hs; simp [asIntOn] at hs; omega
    have e := pscanB_msg bits (x := 60 :: rest) h0 rfl
    rw [asIntOn_wrap] at hs
    rw [if_pos (by omega), if_pos (by omega)] at e
    rw [third hl hm (congrArg Prod.fst e) (congrArg (fun q => q.2.msglen) e) (by simp)]
    cases go with
    | true => rw [if_pos ⟨hs, rfl⟩]; rfl
    | false => rw [if_neg (by simp)]; rfl
  | wrong hf hb he =>
    rw [msgResult_eq] at he
    rw [frame hf, if_pos ⟨hb, by rw [he]; simp⟩, he]
  | last hf hok hr =>
    rw [msgResult_eq] at hok ⊢
    rw [frame hf, if_neg, if_pos hr]
    rintro ⟨a, b⟩
    rcases hok with h | h
    · rw [h] at a; simp at a
    · exact b h
  | more hf hok hr h0 _ ih =>
    rw [msgResult_eq] at hok ⊢
    rw [frame hf, if_neg, if_neg, ih]
    · simp [hr, h0]
    · rintro ⟨a, b⟩
      rcases hok with h | h
      · rw [h] at a; simp at a
      · exact b h

/-- every stream gives something -/
theorem emitsOn_exists (bits : Nat) (go be : Bool) (max : Int) : ∀ (n : Nat) (x : Bytes), x.length ≤ n → ∃ rs, EmitsOn bits go be max x rs := by
  intro n
  induction n with
  | zero =>
    intro x hx
    have : x = [] := List.length_eq_zero_iff.mp (by omega)
    subst this
    exact ⟨_, .noLen .eof (by simp)⟩
  | succ n ih =>
    intro x hx
    obtain ⟨tok, hf⟩ := found_exists x
    by_cases ht : tok.typ ≠ .MSGLEN
    · exact ⟨_, .noLen hf ht⟩
    obtain ⟨w, rest, hl⟩ : ∃ w rest, LenText x w rest := by
      cases hf with
      | len h => exact ⟨_, _, h⟩
      | eof => simp at ht
      | nul => simp at ht
      | space => simp at ht
      | other => simp at ht
    by_cases hm : asIntOn bits (lenValue w) > max
    · exact ⟨_, .tooLong hl hm⟩
    have hm' : asIntOn bits (lenValue w) ≤ max := by omega
    obtain ⟨tok2, hf2⟩ := found_exists rest
    by_cases ht2 : tok2.typ ≠ .WS
    · exact ⟨_, .noSpace hl hm' hf2 ht2⟩
    obtain ⟨r, rfl⟩ : ∃ r, rest = 32 :: r := by
      cases hf2 with
      | space => exact ⟨_, rfl⟩
      | eof => simp at ht2
      | nul => simp at ht2
      | len => simp at ht2
      | other => simp at ht2
    by_cases hz : lenValue w = 0 ∨ r.head? ≠ some 60
    · obtain ⟨tok3, hf3⟩ := found_exists r
      by_cases hb : go = false ∨ asIntOn bits (if tok3.typ = .MSGLEN then lenValue tok3.lit else lenValue w) ≤ tok3.lit.length
      · exact ⟨_, .noMsg hl hm' hf3 hz rfl hb⟩
      · have : go = true ∧ (tok3.lit.length : Int) < asIntOn bits (if tok3.typ = .MSGLEN then lenValue tok3.lit else lenValue w) := by
          refine ⟨?_, ?_⟩
          · cases go with
            | true => rfl
            | false => exact absurd (Or.inl rfl) hb
          · have := fun h => hb (Or.inr h)
            omega
        exact ⟨_, .noMsgBest hl hm' hf3 hz rfl this.1 this.2⟩
    have hz0 : lenValue w ≠ 0 := fun h => hz (Or.inl h)
    obtain ⟨t, rfl⟩ : ∃ t, r = 60 :: t := by
      cases r with
      | nil => exact absurd (Or.inr (by simp)) hz
      | cons b t =>
        have hb : b = 60 := Classical.byContradiction fun h => hz (Or.inr (by simpa using h))
        exact ⟨t, by rw [hb]⟩
    by_cases hh : asIntOn bits (lenValue w) < 0
    · exact ⟨_, .negative hl hh hm'⟩
    by_cases hs : ((60 :: t : Bytes).length : Int) < asIntOn bits (lenValue w)
    · exact ⟨_, .short hl hs hm'⟩
    have hfr : FrameOn bits max x ((60 :: t).take (asIntOn bits (lenValue w)).toNat) ((60 :: t).drop (asIntOn bits (lenValue w)).toNat) := by
      have hlen : (((60 :: t : Bytes).take (asIntOn bits (lenValue w)).toNat).length : Int) = asIntOn bits (lenValue w) := by
        rw [List.length_take]; omega
      refine ⟨w, ?_, hz0, hlen.symm, ?_, ?_⟩
      · rw [List.take_append_drop]; exact hl
      · rw [List.take_append_drop]; rfl
      · rw [hlen]; exact hm'
    generalize (asIntOn bits (lenValue w)).toNat = k at hfr
    by_cases hok : go = true ∨ (msgResult be ((60 :: t).take k)).err = none
    · by_cases hr : (60 :: t).drop k = [] ∨ ((60 :: t).drop k).head? = some 0
      · exact ⟨_, .last hfr hok hr⟩
      · have hsh := lenText_shorter hl
        obtain ⟨rs, hrs⟩ := ih ((60 :: t).drop k) (by simp only [List.length_drop, List.length_cons] at hsh ⊢; omega)
        exact ⟨_, .more hfr hok (fun h => hr (Or.inl h)) (fun h => hr (Or.inr h)) hrs⟩
    · cases he : (msgResult be ((60 :: t).take k)).err with
      | none => exact absurd (Or.inr he) hok
      | some e =>
        refine ⟨_, .wrong hfr ?_ he⟩
        cases go with
        | false => rfl
        | true => exact absurd (Or.inl rfl) hok

theorem emitsOn_iff {bits : Nat} {go be : Bool} {max : Int} {x : Bytes} {rs : List Result} :
    EmitsOn bits go be max x rs ↔ prunB bits go be max (x.map some) = rs := by
  refine ⟨prunB_emits, ?_⟩
  rintro rfl
  obtain ⟨rs, h⟩ := emitsOn_exists bits go be max x.length x (Nat.le_refl _)
  rw [prunB_emits h]; exact h

end Verif.Octet
