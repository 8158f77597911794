import Verif.Octet.Frames

/-! # Framing errors, and what is consumed when there is none -/

namespace Verif.Octet
open Verif.Spec
open Verif.Rfc5424 (parse1 parse_eq parse1_eq resultOf descend SyslogMessage)

/-- the third token when the announced length is useless -/
theorem pscan_useless (s : PS) (h : s.msglen = 0 ∨ 2 ^ 63 ≤ s.msglen) :
    (pscan s).1.typ ≠ .SYSLOGMSG ∧ ((pscan s).1.lit.head? ≠ some 60 ∨ (pscan s).1.lit.length ≤ 1) := by
  unfold pscan
  split
  · simp
  · rename_i b r _
    split
    · rename_i hz
      refine ⟨by simp, Or.inl ?_⟩
      simp only [List.head?_cons, ne_eq, Option.some.injEq]
      rintro rfl; simp [isNonZeroDigit] at hz
    · split
      · simp
      · split
        · simp
        · split
          · rename_i hl
            rw [if_neg (by omega)]; simp
          · simp

theorem prun_third {be : Bool} {max : Int} {inp : Events} {t1 t2 : Token} {s1 s2 : PS}
    (h1 : pscan ⟨inp, 0, false⟩ = (t1, s1)) (c1 : t1.typ = .MSGLEN) (c2 : toInt s1.msglen ≤ max)
    (h2 : pscan s1 = (t2, s2)) (c3 : t2.typ = .WS) (c4 : (pscan s2).1.typ ≠ .SYSLOGMSG) :
    prun be max inp =
      if ((pscan s2).1.lit.length : Int) < toInt (pscan s2).2.msglen ∧ be = true then
        [⟨(pmsg be (pscan s2).1.lit).msg, some ((pmsg be (pscan s2).1.lit).err.getD (.notMsg (pscan s2).1 (pscan s2).2.msglen))⟩]
      else [⟨none, some (.notMsg (pscan s2).1 (pscan s2).2.msglen)⟩] := by
  rw [prun, h1]
  simp only []
  rw [if_neg (by simpa using c1), if_neg (by omega), h2]
  simp only []
  rw [if_neg (by simpa using c3), if_pos c4]

/-- if the announced length is 0, does not fit an `int`, or exceeds the maximum, there is one error result -/
theorem prun_bad_len (be : Bool) (max : Int) (inp : Events) (h1 : (pscan ⟨inp, 0, false⟩).1.typ = .MSGLEN)
    (hb : (pscan ⟨inp, 0, false⟩).2.msglen = 0 ∨ 2 ^ 63 ≤ (pscan ⟨inp, 0, false⟩).2.msglen ∨
      toInt (pscan ⟨inp, 0, false⟩).2.msglen > max) :
    ∃ e, prun be max inp = [⟨none, some e⟩] := by
  cases hs1 : pscan ⟨inp, 0, false⟩ with
  | mk t1 s1 =>
    rw [hs1] at h1 hb
    simp only at h1 hb
    by_cases c2 : toInt s1.msglen > max
    · rw [prun, hs1]
      simp only []
      rw [if_neg (by simpa using h1), if_pos c2]
      exact ⟨_, rfl⟩
    · have hb' : s1.msglen = 0 ∨ 2 ^ 63 ≤ s1.msglen := by omega
      have sp := pscan_spec s1
      cases hs2 : pscan s1 with
      | mk t2 s2 =>
        rw [hs2] at sp
        by_cases c3 : t2.typ = .WS
        · have hm := sp.ws c3
          simp only at hm
          obtain ⟨u1, u2⟩ := pscan_useless s2 (by rw [hm]; exact hb')
          rw [prun_third hs1 h1 (by omega) hs2 c3 u1]
          split
          · obtain ⟨e, he⟩ := pmsg_short be _ u2
            rw [he]; exact ⟨_, rfl⟩
          · exact ⟨_, rfl⟩
        · rw [prun, hs1]
          simp only []
          rw [if_neg (by simpa using h1), if_neg c2, hs2]
          simp only []
          rw [if_pos c3]
          exact ⟨_, rfl⟩

theorem pdigits_inv (w : Bytes) : ∃ ds, ∃ nul : Bool, ∃ w', w = ds ++ ((if nul then [0] else []) ++ w') ∧
    pdigits (w.map some) = (ds, w'.map some) := by
  induction w with
  | nil => exact ⟨[], false, [], rfl, rfl⟩
  | cons b w ih =>
    simp only [List.map_cons, pdigits]
    by_cases h0 : b = 0
    · exact ⟨[], true, w, by simp [h0], by simp [h0]⟩
    · rw [if_neg h0]
      cases hd : isDigit b with
      | false => exact ⟨[], false, b :: w, by simp, by simp⟩
      | true =>
        obtain ⟨ds, nul, w', e1, e2⟩ := ih
        exact ⟨b :: ds, nul, w', by rw [e1]; rfl, by rw [e2]; rfl⟩

theorem pscan_len_inv (w : Bytes) (h : (pscan ⟨w.map some, 0, false⟩).1.typ = .MSGLEN) :
    ∃ ds, ∃ nul : Bool, ∃ w', w = ds ++ ((if nul then [0] else []) ++ w') ∧ ds ≠ [] ∧ (∀ c ∈ ds, 47 ≤ c.toNat ∧ c.toNat ≤ 57) ∧
      pscan ⟨w.map some, 0, false⟩ = (⟨.MSGLEN, ds⟩, ⟨w'.map some, parseUint ds 0, false⟩) := by
  cases w with
  | nil => simp [pscan, pread] at h
  | cons b w =>
    cases hz : isNonZeroDigit b with
    | true =>
      obtain ⟨ds, nul, w', e1, e2⟩ := pdigits_inv w
      refine ⟨b :: ds, nul, w', by rw [e1]; rfl, by simp, ?_, ?_⟩
      · intro c hc
        rcases List.mem_cons.mp hc with rfl | hc
        · simp [isNonZeroDigit] at hz; omega
        · have := pdigits_digit (w.map some)
          rw [e2] at this
          exact this c hc
      · simp only [List.map_cons, pscan, pread, hz, if_true, e2]
    | false =>
      exfalso
      simp only [List.map_cons, pscan, pread, hz, Bool.false_eq_true, if_false] at h
      split at h
      · simp at h
      · split at h
        · simp at h
        · split at h
          · omega
          · simp at h

theorem pscan_ws_inv (w : Bytes) (n : Nat) (h : (pscan ⟨w.map some, n, false⟩).1.typ = .WS) :
    ∃ w', w = 32 :: w' := by
  cases w with
  | nil => simp [pscan, pread] at h
  | cons b w =>
    by_cases hb : b = 32
    · exact ⟨w, by rw [hb]⟩
    · exfalso
      simp only [List.map_cons, pscan, pread, hb, if_false] at h
      split at h
      · simp at h
      · split at h
        · simp at h
        · split at h
          · simp_all
          · simp at h

theorem pscan_msg_inv (w : Bytes) (n : Nat) (h : (pscan ⟨w.map some, n, true⟩).1.typ = .SYSLOGMSG) :
    w.head? = some 60 ∧ n ≤ w.length := by
  cases w with
  | nil => simp [pscan, pread] at h
  | cons b w =>
    simp only [List.map_cons, pscan, pread] at h
    split at h
    · simp at h
    · split at h
      · simp at h
      · split at h
        · simp at h
        · split at h
          · rename_i hl
            refine ⟨by simp [hl.1], ?_⟩
            split at h
            · have hfr := front_somes n (60 :: w) []
              simp only [List.append_nil, List.map_cons] at hfr
              rw [ppeek, hfr] at h
              split at h
              · simp at h
              · rename_i hh
                split at hh
                · simp at hh
                · rename_i hq
                  simp only [List.length_append, List.length_take, List.length_cons] at hq
                  have : (front (n - (60 :: w).length) ([] : Events)).length = 0 := by
                    cases (n - (60 :: w).length) <;> rfl
                  simp only [List.length_cons] at this hq ⊢
                  omega
            · simp at h
          · simp at h

/-- if there is no error, the stream is a sequence of frames up to its end or to a NUL -/
theorem prun_ok_inv (be : Bool) (max : Int) : ∀ (k : Nat) (w : Bytes), w.length ≤ k →
    (∀ r ∈ prun be max (w.map some), r.err = none) →
    ∃ fs tail, fs ≠ [] ∧ (∀ f ∈ fs, LooseFrame.WF max f) ∧ w = fs.flatMap LooseFrame.text ++ tail ∧
      (tail = [] ∨ tail.head? = some 0) ∧ ∀ f ∈ fs, (pmsg be f.msg).err = none := by
  intro k
  induction k with
  | zero =>
    intro w hw h
    have : w = [] := List.length_eq_zero_iff.mp (by omega)
    subst this
    rw [prun] at h
    simp [pscan, pread] at h
  | succ k ih =>
    intro w hw h
    have hnot : ¬ ∃ e, prun be max (w.map some) = [⟨none, some e⟩] := by
      rintro ⟨e, he⟩; rw [he] at h; simp at h
    by_cases c1 : (pscan ⟨w.map some, 0, false⟩).1.typ = .MSGLEN
    · obtain ⟨ds, nul, w', ew, hne, hds, hs1⟩ := pscan_len_inv w c1
      have hbl := fun hb => hnot (prun_bad_len be max _ c1 hb)
      rw [hs1] at hbl
      simp only [not_or] at hbl
      have hgood : ¬ (parseUint ds 0 = 0 ∨ 2 ^ 63 ≤ parseUint ds 0 ∨ toInt (parseUint ds 0) > max) := hbl
      have hdig : IsDigits ds := by
        intro c hc
        by_cases hc' : c.toNat < 48 ∨ 57 < c.toNat
        · exfalso
          rcases parseUint_bad ds 0 ⟨c, hc, hc'⟩ with h0 | h0 <;> rw [h0] at hgood <;> omega
        · omega
      have hval := parseUint_val ds 0 hdig (by omega)
      simp only [Nat.zero_mul, Nat.zero_add] at hval
      have hv : parseUint ds 0 = numVal ds := by
        rw [hval]
        split
        · rfl
        · rename_i hh
          rw [hval, if_neg hh] at hgood; omega
      rw [hv] at hgood hs1
      have h63 : numVal ds < 2 ^ 63 := by omega
      have hmax : (numVal ds : Int) ≤ max := by rw [toInt_nat h63] at hgood; omega
      by_cases c3 : (pscan ⟨w'.map some, numVal ds, false⟩).1.typ = .WS
      · obtain ⟨w'', rfl⟩ := pscan_ws_inv _ _ c3
        by_cases c4 : (pscan ⟨w''.map some, numVal ds, true⟩).1.typ = .SYSLOGMSG
        · obtain ⟨h60, hlen⟩ := pscan_msg_inv _ _ c4
          have hmlen : (w''.take (numVal ds)).length = numVal ds := by rw [List.length_take]; omega
          have hf : LooseFrame.WF max ⟨ds, nul, w''.take (numVal ds)⟩ := by
            refine ⟨hne, hdig, hmlen.symm, ?_, by simp only [hmlen]; exact hmax, by simp only [hmlen]; exact h63⟩
            simp only []
            rw [List.head?_take, if_neg (by omega)]; exact h60
          have ew2 : w = LooseFrame.text ⟨ds, nul, w''.take (numVal ds)⟩ ++ w''.drop (numVal ds) := by
            rw [ew, LooseFrame.text]
            simp
          have hok : be = true ∨ (pmsg be (w''.take (numVal ds))).err = none := by
            cases hbe : be with
            | true => exact Or.inl rfl
            | false =>
              right
              rw [hbe] at h
              cases hp : (pmsg false (w''.take (numVal ds))).err with
              | none => rfl
              | some e =>
                exfalso
                rw [ew2, List.map_append, prun_frame_bad hf (by rw [hp]; simp)] at h
                simp [hp] at h
          rw [ew2, List.map_append, prun_frame hf hok] at h
          by_cases hend : Ends ((w''.drop (numVal ds)).map some)
          · rw [if_pos hend] at h
            refine ⟨[⟨ds, nul, w''.take (numVal ds)⟩], w''.drop (numVal ds), by simp, by simpa using hf, by simpa using ew2, ?_,
              by simpa using h⟩
            rcases hend with e | e | e
            · left; simpa using e
            · simp at e
            · right; simpa using e
          · rw [if_neg hend] at h
            have hl : (w''.drop (numVal ds)).length ≤ k := by
              rw [ew] at hw
              simp only [List.length_append, List.length_cons] at hw
              have := List.length_pos_iff.mpr hne
              rw [List.length_drop]; omega
            obtain ⟨fs, tail, g1, g2, g3, g4, g5⟩ := ih _ hl (fun r hr => h r (List.mem_cons_of_mem _ hr))
            refine ⟨⟨ds, nul, w''.take (numVal ds)⟩ :: fs, tail, by simp, ?_, ?_, g4, ?_⟩
            · intro f hf'
              rcases List.mem_cons.mp hf' with rfl | hf'
              · exact hf
              · exact g2 f hf'
            · rw [List.flatMap_cons, List.append_assoc, ← g3]; exact ew2
            · intro f hf'
              rcases List.mem_cons.mp hf' with rfl | hf'
              · exact h _ (by simp)
              · exact g5 f hf'
        · exfalso
          have h3 := prun_third (be := be) (max := max) hs1 rfl (by rw [toInt_nat h63]; exact hmax) (pscan_ws _ _ _) rfl c4
          rw [h3] at h
          split at h <;> simp at h
      · exfalso
        rw [prun, hs1] at h
        simp only [] at h
        rw [if_neg (by simp), if_neg (by rw [toInt_nat h63]; omega), if_pos c3] at h
        simp at h
    · exfalso
      rw [prun] at h
      simp only [] at h
      rw [if_pos c1] at h
      simp at h

/-- in strict mode only the last result carries an error -/
theorem prun_strict (max : Int) (inp : Events) : ∃ (ok : List SyslogMessage) (e : Option Error),
    prun false max inp = (ok.map fun m => ⟨some m, none⟩) ++ (match e with | none => [] | some e => [⟨none, some e⟩]) := by
  fun_induction prun false max inp with
  | case1 => exact ⟨[], some _, rfl⟩
  | case2 => exact ⟨[], some _, rfl⟩
  | case3 => exact ⟨[], some _, rfl⟩
  | case4 => rename_i h; simp at h
  | case5 => exact ⟨[], some _, rfl⟩
  | case6 inp s1 h1 h2 s2 h3 s3 h4 h5 =>
    cases he : (pmsg false s3.1.lit).err with
    | none => exact absurd he h5.2
    | some e => exact ⟨[], some e, rfl⟩
  | case7 inp s1 h1 h2 s2 h3 s3 h4 h5 h6 =>
    rcases strict_pmsg s3.1.lit with ⟨m, hm⟩ | ⟨e, he⟩
    · exact ⟨[m], none, by rw [hm]; rfl⟩
    · exact absurd ⟨rfl, by rw [he]; simp⟩ h5
  | case8 inp s1 h1 h2 s2 h3 s3 h4 h5 h6 h7 ih =>
    obtain ⟨ok, e, ih⟩ := ih
    rcases strict_pmsg s3.1.lit with ⟨m, hm⟩ | ⟨e, he⟩
    · exact ⟨m :: ok, e, by rw [hm, ih]; rfl⟩
    · exact absurd ⟨rfl, by rw [he]; simp⟩ h5
  | case9 => exact ⟨[], none, rfl⟩

theorem prunc_strict (max : Int) (cap : Nat) (inp : Events) : ∃ (ok : List SyslogMessage) (e : Option Error),
    (prunc false max cap inp).1 = (ok.map fun m => ⟨some m, none⟩) ++ (match e with | none => [] | some e => [⟨none, some e⟩]) := by
  fun_induction prunc false max cap inp with
  | case1 => exact ⟨[], some _, rfl⟩
  | case2 => exact ⟨[], some _, rfl⟩
  | case3 => exact ⟨[], some _, rfl⟩
  | case4 => exact ⟨[], some _, rfl⟩
  | case5 inp s1 h1 h2 s2 h3 hf s3 h4 =>
    rw [if_neg (by simp)]
    exact ⟨[], some _, rfl⟩
  | case6 inp s1 h1 h2 s2 h3 hf s3 h4 h5 =>
    cases he : (pmsg false s3.1.lit).err with
    | none => exact absurd he h5.2
    | some e => exact ⟨[], some e, rfl⟩
  | case7 inp s1 h1 h2 s2 h3 hf s3 h4 h5 h6 =>
    rcases strict_pmsg s3.1.lit with ⟨m, hm⟩ | ⟨e, he⟩
    · exact ⟨[m], none, by rw [hm]; rfl⟩
    · exact absurd ⟨rfl, by rw [he]; simp⟩ h5
  | case8 inp s1 h1 h2 s2 h3 hf s3 h4 h5 h6 h7 ih =>
    obtain ⟨ok, e, ih⟩ := ih
    rcases strict_pmsg s3.1.lit with ⟨m, hm⟩ | ⟨e, he⟩
    · exact ⟨m :: ok, e, by rw [hm, ih]; rfl⟩
    · exact absurd ⟨rfl, by rw [he]; simp⟩ h5
  | case9 => exact ⟨[], none, rfl⟩

/-- what is handed to the message parser is a piece of the stream, not longer than the maximum -/
theorem pscan_lit (s : PS) (w : Bytes) (hs : s.inp = w.map some) (n : Nat) (hn : s.msglen = n) :
    (pscan s).1.typ = .SYSLOGMSG → (pscan s).1.lit <:+: w ∧ (pscan s).1.lit.length = n ∧ n < 2 ^ 63 := by
  intro h
  obtain ⟨inp, ml, rdy⟩ := s
  simp only at hs hn
  subst hs hn
  cases rdy with
  | true =>
    obtain ⟨h60, hl⟩ := pscan_msg_inv _ _ h
    have hm : (w.take ml).length = ml := by rw [List.length_take]; omega
    by_cases h0 : ml = 0
    · exfalso; exact (pscan_useless ⟨w.map some, ml, true⟩ (Or.inl h0)).1 h
    by_cases h63 : ml < 2 ^ 63
    · have hh : (w.take ml).head? = some 60 := by rw [List.head?_take, if_neg h0]; exact h60
      have := pscan_msg (w.take ml) hh (by omega) ((w.drop ml).map some)
      rw [hm, ← List.map_append, List.take_append_drop] at this
      rw [this]
      exact ⟨(List.take_prefix ml w).isInfix, hm, h63⟩
    · exfalso; exact (pscan_useless ⟨w.map some, ml, true⟩ (Or.inr (by simp only []; omega))).1 h
  | false =>
    exfalso
    unfold pscan at h
    split at h
    · simp at h
    · split at h
      · simp at h
      · split at h
        · simp at h
        · split at h
          · simp at h
          · split at h
            · simp_all
            · simp at h

/-- tokens are pieces of the stream -/
theorem pscan_bytes (s : PS) (w : Bytes) (hs : s.inp = w.map some) :
    ∃ w', (pscan s).2.inp = w'.map some ∧ w' <:+ w ∧ (pscan s).1.lit <+: w ∧
      ((pscan s).1.typ = .MSGLEN → (pscan s).1.lit.head? ≠ some 60) ∧
      ((pscan s).1.typ ≠ .MSGLEN → (pscan s).1.typ ≠ .SYSLOGMSG → (pscan s).2.msglen = s.msglen) := by
  obtain ⟨inp, ml, rdy⟩ := s
  simp only at hs
  subst hs
  cases w with
  | nil => exact ⟨[], rfl, by simp, by simp [pscan, pread], by simp [pscan, pread], by simp [pscan, pread]⟩
  | cons b w =>
    have hsuf : w <:+ b :: w := ⟨[b], rfl⟩
    simp only [List.map_cons, pscan, pread]
    split
    · rename_i hz
      obtain ⟨ds, nul, w', e1, e2⟩ := pdigits_inv w
      rw [e2]
      refine ⟨w', rfl, ?_, ?_, ?_, by simp⟩
      · rw [e1]; exact ⟨b :: (ds ++ (if nul then [0] else [])), by simp⟩
      · rw [e1]; exact ⟨(if nul then [0] else []) ++ w', by simp⟩
      · intro _
        simp only [List.head?_cons, ne_eq, Option.some.injEq]
        rintro rfl; simp [isNonZeroDigit] at hz
    · split
      · exact ⟨w, rfl, hsuf, by simp, by simp, by simp⟩
      · split
        · rename_i h32
          exact ⟨w, rfl, hsuf, by simp [h32], by simp, by simp⟩
        · split
          · rename_i h60
            split
            · have hfr := front_somes ml (60 :: w) []
              simp only [List.append_nil, List.map_cons] at hfr
              have hnil : front (ml - (60 :: w).length) ([] : Events) = [] := by cases (ml - (60 :: w).length) <;> rfl
              rw [hnil, List.append_nil] at hfr
              rw [ppeek, hfr, h60.1]
              by_cases hl : ((60 :: w).take ml).length < ml
              · simp only [if_pos hl]
                have e : (60 :: w).take ml = 60 :: w := by
                  apply List.take_of_length_le
                  rw [List.length_take] at hl; omega
                rw [e]
                refine ⟨60 :: w, ?_, List.suffix_refl _, List.prefix_refl _, by simp, by simp⟩
                simp
              · simp only [if_neg hl]
                refine ⟨(60 :: w).drop ml, ?_, List.drop_suffix _ _, List.take_prefix _ _, by simp, by simp⟩
                rw [List.map_drop]; rfl
            · exact ⟨60 :: w, rfl, by rw [h60.1]; exact List.suffix_refl _, by simp, by simp, by simp⟩
          · exact ⟨w, rfl, hsuf, by simp, by simp, by simp⟩

theorem prun_handed (be : Bool) (max : Int) (inp : Events) : ∀ w : Bytes, inp = w.map some → ∀ r ∈ prun be max inp,
    (∃ e, r = ⟨none, some e⟩) ∨
    ∃ lit, lit <:+: w ∧ (lit.length : Int) ≤ max ∧ r.msg = (pmsg be lit).msg ∧
      (r.err = (pmsg be lit).err ∨ ((pmsg be lit).err = none ∧ r.err ≠ none)) := by
  fun_induction prun be max inp with
  | case1 => intro w hw r hr; left; simp at hr; exact ⟨_, hr⟩
  | case2 => intro w hw r hr; left; simp at hr; exact ⟨_, hr⟩
  | case3 => intro w hw r hr; left; simp at hr; exact ⟨_, hr⟩
  | case5 => intro w hw r hr; left; simp at hr; exact ⟨_, hr⟩
  | case9 => intro w hw r hr; simp at hr
  | case4 inp s1 h1 h2 s2 h3 s3 h4 h5 =>
    intro w hw r hr
    obtain ⟨w1, e1, f1, -⟩ := pscan_bytes ⟨inp, 0, false⟩ w hw
    obtain ⟨w2, e2, f2, -⟩ := pscan_bytes _ w1 e1
    obtain ⟨w3, e3, f3, p3, m3, k3⟩ := pscan_bytes _ w2 e2
    have sp2 := (pscan_spec s1.2).ws (by simpa using h3)
    simp only [List.mem_singleton] at hr
    by_cases hm : s3.1.typ = .MSGLEN
    · obtain ⟨e, he⟩ := pmsg_short be s3.1.lit (Or.inl (m3 hm))
      left
      rw [hr, he]; exact ⟨_, rfl⟩
    · right
      have hk := k3 hm h4
      refine ⟨s3.1.lit, ?_, ?_, by rw [hr], ?_⟩
      · exact List.IsInfix.trans p3.isInfix (List.IsInfix.trans f2.isInfix f1.isInfix)
      · have hx : s3.2.msglen = s1.2.msglen := hk.trans sp2
        rw [hx] at h5; omega
      · rw [hr]
        cases (pmsg be s3.1.lit).err with
        | none => right; simp
        | some e => left; rfl
  | case6 inp s1 h1 h2 s2 h3 s3 h4 h5 =>
    intro w hw r hr
    simp only [List.mem_singleton] at hr
    left
    cases he : (pmsg be s3.1.lit).err with
    | none => exact absurd he h5.2
    | some e => rw [he] at hr; exact ⟨e, hr⟩
  | case7 inp s1 h1 h2 s2 h3 s3 h4 h5 h6 =>
    intro w hw r hr
    obtain ⟨w1, e1, f1, -⟩ := pscan_bytes ⟨inp, 0, false⟩ w hw
    obtain ⟨w2, e2, f2, -⟩ := pscan_bytes _ w1 e1
    have sp2 := (pscan_spec s1.2).ws (by simpa using h3)
    obtain ⟨i1, i2, i3⟩ := pscan_lit _ w2 e2 _ rfl (by simpa using h4)
    simp only [List.mem_singleton] at hr
    right
    refine ⟨s3.1.lit, List.IsInfix.trans i1 (List.IsInfix.trans f2.isInfix f1.isInfix), ?_, by rw [hr], Or.inl (by rw [hr])⟩
    have hx : s2.2.msglen = s1.2.msglen := sp2
    rw [show s3.1.lit.length = s2.2.msglen from i2]
    rw [← hx, toInt_nat (show s2.2.msglen < 2 ^ 63 from i2 ▸ i3)] at h2; omega
  | case8 inp s1 h1 h2 s2 h3 s3 h4 h5 h6 h7 ih =>
    intro w hw r hr
    obtain ⟨w1, e1, f1, -⟩ := pscan_bytes ⟨inp, 0, false⟩ w hw
    obtain ⟨w2, e2, f2, -⟩ := pscan_bytes _ w1 e1
    obtain ⟨w3, e3, f3, -⟩ := pscan_bytes _ w2 e2
    have sp2 := (pscan_spec s1.2).ws (by simpa using h3)
    obtain ⟨i1, i2, i3⟩ := pscan_lit _ w2 e2 _ rfl (by simpa using h4)
    rcases List.mem_cons.mp hr with hr | hr
    · right
      refine ⟨s3.1.lit, List.IsInfix.trans i1 (List.IsInfix.trans f2.isInfix f1.isInfix), ?_, by rw [hr], Or.inl (by rw [hr])⟩
      have hx : s2.2.msglen = s1.2.msglen := sp2
      rw [show s3.1.lit.length = s2.2.msglen from i2]
      rw [← hx, toInt_nat (show s2.2.msglen < 2 ^ 63 from i2 ▸ i3)] at h2; omega
    · rcases ih w3 e3 r hr with h | ⟨lit, l1, l2⟩
      · exact Or.inl h
      · exact Or.inr ⟨lit, List.IsInfix.trans l1 (List.IsInfix.trans f3.isInfix (List.IsInfix.trans f2.isInfix f1.isInfix)), l2⟩

/-- the stream ends inside the message of a frame -/
theorem prun_truncated {be : Bool} {max : Int} (n : Nat) (hn : (n : Int) ≤ max) (h63 : n < 2 ^ 63) (t : Bytes) (ht : t.length < n) :
    ∃ e, prun be max ((dec n ++ 32 :: t).map some) =
      [⟨if be = true ∧ t.head? = some 60 then (pmsg be t).msg else none, some e⟩] := by
  have hd := dec_digits n
  have hs1 : pscan ⟨(dec n ++ 32 :: t).map some, 0, false⟩ = (⟨.MSGLEN, dec n⟩, ⟨some 32 :: t.map some, n, false⟩) := by
    have hp : pdigits ((32 :: t).map some) = ([], some 32 :: t.map some) := by simp [pdigits, isDigit]
    rw [List.map_append, pscan_len _ hd (dec_ne_nil n), hp]
    simp only [List.append_nil]
    rw [parseUint_val _ _ hd (by omega), numVal_dec, if_pos (by omega)]
    simp
  have h4 : (pscan ⟨t.map some, n, true⟩).1.typ ≠ .SYSLOGMSG := by
    intro h
    have := (pscan_msg_inv _ _ h).2
    omega
  rw [prun_third hs1 rfl (by rw [toInt_nat h63]; exact hn) (pscan_ws _ _ _) rfl h4]
  by_cases h60 : t.head? = some 60
  · obtain ⟨u, rfl⟩ : ∃ u, t = 60 :: u := by
      cases t with
      | nil => simp at h60
      | cons b u => simp at h60; exact ⟨u, by rw [h60]⟩
    have hsc : pscan ⟨(60 :: u).map some, n, true⟩ = (⟨.EOF, 60 :: u⟩, ⟨(60 :: u).map some, n, true⟩) := by
      have hfr := front_somes n (60 :: u) []
      simp only [List.append_nil, List.map_cons] at hfr
      have hnil : front (n - (60 :: u).length) ([] : Events) = [] := by cases (n - (60 :: u).length) <;> rfl
      rw [hnil, List.append_nil, List.take_of_length_le (by omega)] at hfr
      simp only [List.map_cons, pscan, pread]
      simp only [show isNonZeroDigit 60 = false by decide, Bool.false_eq_true, if_false, show (60 : UInt8) ≠ 0 by decide,
        show (60 : UInt8) ≠ 32 by decide]
      rw [if_pos ⟨trivial, by omega, trivial⟩, if_pos h63, ppeek, hfr, if_pos ht]
      simp
    rw [hsc]
    simp only []
    rw [toInt_nat h63]
    by_cases hb : be = true
    · rw [if_pos ⟨by omega, hb⟩, if_pos ⟨hb, h60⟩]; exact ⟨_, rfl⟩
    · rw [if_neg (fun h => hb h.2), if_neg (fun h => hb h.1)]; exact ⟨_, rfl⟩
  · simp only [if_neg (show ¬ (be = true ∧ t.head? = some 60) from fun h => h60 h.2)]
    split
    · have hl : (pscan ⟨t.map some, n, true⟩).1.lit.head? ≠ some 60 := by
        obtain ⟨-, -, -, p, -⟩ := pscan_bytes ⟨t.map some, n, true⟩ t rfl
        obtain ⟨v, hv⟩ := p
        cases hq : (pscan ⟨t.map some, n, true⟩).1.lit with
        | nil => simp
        | cons c q => rw [hq] at hv; rw [← hv] at h60; simpa using h60
      obtain ⟨e, he⟩ := pmsg_short be _ (Or.inl hl)
      rw [he]; exact ⟨_, rfl⟩
    · exact ⟨_, rfl⟩

/-- the stream ends inside the digits, or before the space -/
theorem prun_truncated_len {be : Bool} {max : Int} (ds : Bytes) (hd : IsDigits ds) (hne : ds ≠ []) :
    ∃ e, prun be max (ds.map some) = [⟨none, some e⟩] := by
  have hs1 : pscan ⟨ds.map some, 0, false⟩ = (⟨.MSGLEN, ds⟩, ⟨[], parseUint ds 0, false⟩) := by
    have := pscan_len ds hd hne [] 0 false
    simpa [pdigits] using this
  rw [prun, hs1]
  simp only []
  rw [if_neg (by simp)]
  split
  · exact ⟨_, rfl⟩
  · rw [if_pos (by simp [pscan, pread])]
    exact ⟨_, rfl⟩

/-- an announced length above the maximum, whatever follows -/
theorem prun_too_long {be : Bool} {max : Int} (ds : Bytes) (hd : IsDigits ds) (hmax : (numVal ds : Int) > max) (h0 : ds ≠ [])
    (rest : Events) : ∃ e, prun be max (ds.map some ++ rest) = [⟨none, some e⟩] := by
  have hs := pscan_len ds hd h0 rest 0 false
  apply prun_bad_len
  · rw [hs]
  · rw [hs]
    simp only []
    by_cases hdd : IsDigits (ds ++ (pdigits rest).1)
    · rw [parseUint_val _ _ hdd (by omega)]
      simp only [Nat.zero_mul, Nat.zero_add]
      split
      · rename_i hlt
        by_cases h63 : numVal (ds ++ (pdigits rest).1) < 2 ^ 63
        · right; right
          rw [toInt_nat h63, numVal_append]
          have hp := pow_len (pdigits rest).1
          have : numVal ds ≤ numVal ds * 10 ^ (pdigits rest).1.length := Nat.le_mul_of_pos_right _ hp
          omega
        · omega
      · omega
    · have hbad : ∃ c ∈ ds ++ (pdigits rest).1, c.toNat < 48 ∨ 57 < c.toNat := by
        apply Classical.byContradiction
        intro hno
        apply hdd
        intro c hc
        apply Classical.byContradiction
        intro hcc
        exact hno ⟨c, hc, by omega⟩
      rcases parseUint_bad _ 0 hbad with h | h <;> rw [h] <;> omega

end Verif.Octet
