import Verif.Octet.Refine

/-! # The parser on events -/

namespace Verif.Octet
open Verif.Rfc5424 (parse1 parse_eq parse1_eq resultOf descend)

/-- result of the message parser as the listener sees it -/
def pmsg (be : Bool) (lit : Bytes) : Result :=
  match parse1 { bestEffort := be } lit with
  | none => {}
  | some r => ⟨r.msg, r.err.map .message⟩

/-- `run` on events -/
def prun (be : Bool) (max : Int) (inp : Events) : List Result :=
  let s1 := pscan ⟨inp, 0, false⟩
  if s1.1.typ ≠ .MSGLEN then [⟨none, some (.notMsgLen s1.1)⟩]
  else if toInt s1.2.msglen > max then [⟨none, some (.tooLong s1.2.msglen max)⟩]
  else
    let s2 := pscan s1.2
    if s2.1.typ ≠ .WS then [⟨none, some (.notWS s2.1)⟩]
    else
      let s3 := pscan s2.2
      if s3.1.typ ≠ .SYSLOGMSG then
        if (s3.1.lit.length : Int) < toInt s3.2.msglen ∧ be = true then
          [⟨(pmsg be s3.1.lit).msg, some ((pmsg be s3.1.lit).err.getD (.notMsg s3.1 s3.2.msglen))⟩]
        else [⟨none, some (.notMsg s3.1 s3.2.msglen)⟩]
      else if be = false ∧ (pmsg be s3.1.lit).err ≠ none then [⟨none, (pmsg be s3.1.lit).err⟩]
      else if (pscan s3.2).1.typ = .EOF then [pmsg be s3.1.lit]
      else if s3.2.inp.length < inp.length then pmsg be s3.1.lit :: prun be max s3.2.inp
      else []
termination_by inp.length

/-- `run` on events with a buffer of `cap` bytes: the results, and what is left -/
def prunc (be : Bool) (max : Int) (cap : Nat) (inp : Events) : List Result × Events :=
  let s1 := pscan ⟨inp, 0, false⟩
  if s1.1.typ ≠ .MSGLEN then ([⟨none, some (.notMsgLen s1.1)⟩], s1.2.inp)
  else if toInt s1.2.msglen > max then ([⟨none, some (.tooLong s1.2.msglen max)⟩], s1.2.inp)
  else
    let s2 := pscan s1.2
    if s2.1.typ ≠ .WS then ([⟨none, some (.notWS s2.1)⟩], s2.2.inp)
    else if (cap : Int) < toInt s2.2.msglen ∧ (pread s2.2.inp).1 = some 60 then
      let lit := front cap s2.2.inp
      (if be = true then [⟨(pmsg be lit).msg, some ((pmsg be lit).err.getD (.notMsg ⟨.EOF, lit⟩ s2.2.msglen))⟩]
        else [⟨none, some (.notMsg ⟨.EOF, lit⟩ s2.2.msglen)⟩], s2.2.inp)
    else
      let s3 := pscan s2.2
      if s3.1.typ ≠ .SYSLOGMSG then
        (if (s3.1.lit.length : Int) < toInt s3.2.msglen ∧ be = true then
          [⟨(pmsg be s3.1.lit).msg, some ((pmsg be s3.1.lit).err.getD (.notMsg s3.1 s3.2.msglen))⟩]
        else [⟨none, some (.notMsg s3.1 s3.2.msglen)⟩], s3.2.inp)
      else if be = false ∧ (pmsg be s3.1.lit).err ≠ none then ([⟨none, (pmsg be s3.1.lit).err⟩], s3.2.inp)
      else if (pscan s3.2).1.typ = .EOF then ([pmsg be s3.1.lit], (pscan s3.2).2.inp)
      else if s3.2.inp.length < inp.length then
        (pmsg be s3.1.lit :: (prunc be max cap s3.2.inp).1, (prunc be max cap s3.2.inp).2)
      else ([], s3.2.inp)
termination_by inp.length

theorem front_prefix (n : Nat) (l : Events) : l = (front n l).map some ++ l.drop (front n l).length := by
  fun_induction front n l with
  | case1 n b l ih => simp; exact ih
  | case2 => simp

theorem pdigits_le (l : Events) : (pdigits l).2.length ≤ l.length ∧ nb (pdigits l).2 ≤ nb l := by
  fun_induction pdigits l with
  | case1 => simp
  | case2 r => simp [nb]
  | case3 => simp [nb]
  | case4 b r h1 h2 ih => simp [nb] at ih ⊢; omega
  | case5 => simp

/-- the scanner never gives anything back; a message consumes at least a byte; nothing else than a digit changes the
announced length, except that a message resets it -/
structure ScanSpec (s : PS) (t : Token × PS) : Prop where
  len : t.2.inp.length ≤ s.inp.length
  bytes : nb t.2.inp ≤ nb s.inp
  msg : t.1.typ = .SYSLOGMSG → t.2.inp.length < s.inp.length ∧ nb t.2.inp < nb s.inp ∧ t.2.msglen = 0 ∧ t.2.ready = false
  ws : t.1.typ = .WS → t.2.msglen = s.msglen
  wsr : t.1.typ = .WS → t.2.ready = true
  num : t.1.typ = .MSGLEN → t.2.ready = false

theorem pscan_spec (s : PS) : ScanSpec s (pscan s) := by
  obtain ⟨inp, ml, rdy⟩ := s
  simp only [pscan]
  cases hp : pread inp with
  | mk o r =>
    have hlen : r.length ≤ inp.length ∧ nb r ≤ nb inp := by
      cases inp with
      | nil => simp [pread] at hp; rw [← hp.2]; simp
      | cons x l => cases x <;> simp [pread] at hp <;> rw [← hp.2] <;> simp [nb]
    cases o with
    | none => exact ⟨hlen.1, hlen.2, by simp, by simp, by simp, by simp⟩
    | some b =>
      have hi := pread_some hp
      simp only []
      split
      · have := pdigits_le r
        exact ⟨by simp only []; omega, by simp only []; omega, by simp, by simp, by simp, by simp⟩
      · split
        · exact ⟨hlen.1, hlen.2, by simp, by simp, by simp, by simp⟩
        · split
          · exact ⟨hlen.1, hlen.2, by simp, by simp, by simp, by simp⟩
          · split
            · rename_i hlt
              split
              · have hinp : inp = some 60 :: r := by rw [hi, hlt.1]
                simp only [ppeek]
                have hpre := front_prefix ml (some (60 : UInt8) :: r)
                split
                · rename_i w r' heq
                  split at heq
                  · simp only [Prod.mk.injEq] at heq
                    obtain ⟨-, -, rfl⟩ := heq
                    have e : ∀ l : Events, ∀ k : Nat, nb (l.drop (k + 1)) ≤ nb (l.drop k) ∧ (l.drop (k+1)).length ≤ (l.drop k).length := by
                      intro l k
                      constructor
                      · exact ((List.Sublist.filter Option.isSome (by
                          rw [← List.drop_drop]; exact List.drop_sublist ..)).length_le)
                      · simp; omega
                    have e1 := e (some 60 :: r) (front ml (some 60 :: r)).length
                    have l1 : (some (60:UInt8) :: r).length = ((front ml (some 60 :: r)).map some).length +
                        ((some (60:UInt8) :: r).drop (front ml (some 60 :: r)).length).length := by
                      rw [← List.length_append, ← hpre]
                    have l2 : nb (some (60:UInt8) :: r) = nb ((front ml (some 60 :: r)).map some) +
                        nb ((some (60:UInt8) :: r).drop (front ml (some 60 :: r)).length) := by
                      rw [← nb_append, ← hpre]
                    refine ⟨?_, ?_, by simp, by simp, by simp, by simp⟩
                    · simp only [hinp, List.length_append]; omega
                    · simp only [hinp, nb_append]; omega
                  · simp at heq
                · rename_i w r' heq
                  split at heq
                  · simp at heq
                  · rename_i hfl
                    simp only [Prod.mk.injEq, true_and] at heq
                    obtain ⟨rfl, rfl⟩ := heq
                    have hfl' : (front ml (some (60:UInt8) :: r)).length = ml := by
                      have := front_length ml (some (60:UInt8) :: r); omega
                    have l1 : (some (60:UInt8) :: r).length = ((front ml (some 60 :: r)).map some).length +
                        ((some (60:UInt8) :: r).drop (front ml (some 60 :: r)).length).length := by
                      rw [← List.length_append, ← hpre]
                    have l2 : nb (some (60:UInt8) :: r) = nb ((front ml (some 60 :: r)).map some) +
                        nb ((some (60:UInt8) :: r).drop (front ml (some 60 :: r)).length) := by
                      rw [← nb_append, ← hpre]
                    rw [hfl', List.length_map, hfl'] at l1
                    rw [nb_somes, hfl'] at l2
                    have := hlt.2.1
                    refine ⟨?_, ?_, fun _ => ⟨?_, ?_, rfl, rfl⟩, by simp, by simp, by simp⟩ <;> simp only [hinp] <;> omega
              · refine ⟨?_, ?_, by simp, by simp, by simp, by simp⟩ <;> simp only [hi, hlt.1] <;> exact Nat.le_refl _
            · exact ⟨hlen.1, hlen.2, by simp, by simp, by simp, by simp⟩

/-- with a buffer large enough -/
theorem prunc_prun (be : Bool) (max : Int) (cap : Nat) (hc : max ≤ cap) (inp : Events) : (prunc be max cap inp).1 = prun be max inp := by
  fun_induction prun be max inp with
  | case1 inp s1 h1 => rw [prunc]; simp only []; rw [if_pos h1]
  | case2 inp s1 h1 h2 => rw [prunc]; simp only []; rw [if_neg h1, if_pos h2]
  | case3 inp s1 h1 h2 s2 h3 => rw [prunc]; simp only []; rw [if_neg h1, if_neg h2, if_pos h3]
  | case4 inp s1 h1 h2 s2 h3 s3 h4 h5 =>
    have hml := (pscan_spec s1.2).ws (by simpa using h3)
    have hno : ¬ ((cap : Int) < toInt s2.2.msglen ∧ (pread s2.2.inp).1 = some 60) := by
      rintro ⟨h, -⟩; have : s2.2.msglen = s1.2.msglen := hml; rw [this] at h; omega
    rw [prunc]; simp only []; rw [if_neg h1, if_neg h2, if_neg h3, if_neg hno, if_pos h4, if_pos h5]
  | case5 inp s1 h1 h2 s2 h3 s3 h4 h5 =>
    have hml := (pscan_spec s1.2).ws (by simpa using h3)
    have hno : ¬ ((cap : Int) < toInt s2.2.msglen ∧ (pread s2.2.inp).1 = some 60) := by
      rintro ⟨h, -⟩; have : s2.2.msglen = s1.2.msglen := hml; rw [this] at h; omega
    rw [prunc]; simp only []; rw [if_neg h1, if_neg h2, if_neg h3, if_neg hno, if_pos h4, if_neg h5]
  | case6 inp s1 h1 h2 s2 h3 s3 h4 h5 =>
    have hml := (pscan_spec s1.2).ws (by simpa using h3)
    have hno : ¬ ((cap : Int) < toInt s2.2.msglen ∧ (pread s2.2.inp).1 = some 60) := by
      rintro ⟨h, -⟩; have : s2.2.msglen = s1.2.msglen := hml; rw [this] at h; omega
    rw [prunc]; simp only []; rw [if_neg h1, if_neg h2, if_neg h3, if_neg hno, if_neg h4, if_pos h5]
  | case7 inp s1 h1 h2 s2 h3 s3 h4 h5 h6 =>
    have hml := (pscan_spec s1.2).ws (by simpa using h3)
    have hno : ¬ ((cap : Int) < toInt s2.2.msglen ∧ (pread s2.2.inp).1 = some 60) := by
      rintro ⟨h, -⟩; have : s2.2.msglen = s1.2.msglen := hml; rw [this] at h; omega
    rw [prunc]; simp only []; rw [if_neg h1, if_neg h2, if_neg h3, if_neg hno, if_neg h4, if_neg h5, if_pos h6]
  | case8 inp s1 h1 h2 s2 h3 s3 h4 h5 h6 h7 ih =>
    have hml := (pscan_spec s1.2).ws (by simpa using h3)
    have hno : ¬ ((cap : Int) < toInt s2.2.msglen ∧ (pread s2.2.inp).1 = some 60) := by
      rintro ⟨h, -⟩; have : s2.2.msglen = s1.2.msglen := hml; rw [this] at h; omega
    rw [prunc]; simp only []; rw [if_neg h1, if_neg h2, if_neg h3, if_neg hno, if_neg h4, if_neg h5, if_neg h6, if_pos h7]
    simp only [s3, s2, s1] at ih ⊢
    rw [ih]
  | case9 inp s1 h1 h2 s2 h3 s3 h4 h5 h6 h7 =>
    have hml := (pscan_spec s1.2).ws (by simpa using h3)
    have hno : ¬ ((cap : Int) < toInt s2.2.msglen ∧ (pread s2.2.inp).1 = some 60) := by
      rintro ⟨h, -⟩; have : s2.2.msglen = s1.2.msglen := hml; rw [this] at h; omega
    rw [prunc]; simp only []; rw [if_neg h1, if_neg h2, if_neg h3, if_neg hno, if_neg h4, if_neg h5, if_neg h6, if_neg h7]

/-- invariant of the parser between two scans -/
structure PInv (be : Bool) (max : Int) (cap : Nat) (p : Parser) : Prop where
  hbe : p.bestEffort = be
  hmax : p.maxMessageLength = max
  ibe : p.internal.bestEffort = be
  ico : p.internal.compliantMsg = false
  step : p.stepback = false
  ok : p.s.r.Ok
  cap : p.s.r.cap = cap
  len : p.s.msglen < 2 ^ 64

theorem parser_scan {be : Bool} {max : Int} {cap : Nat} {p : Parser} (h : PInv be max cap p) (hc : toInt p.s.msglen ≤ cap ∨ (pread p.s.abs.inp).1 ≠ some 60 ∨ p.s.abs.ready = false) :
    ∃ p', p.scan = ((pscan p.s.abs).1, p') ∧ p'.s.abs = (pscan p.s.abs).2 ∧ p'.last = (pscan p.s.abs).1 ∧ PInv be max cap p' := by
  obtain ⟨h1, h2, h3⟩ := scan_spec p.s h.ok (by rw [h.cap]; exact hc) h.len
  have hl := pscan_msglen p.s.abs h.len
  rw [h1] at hl
  refine ⟨{ p with s := p.s.scan.2, last := p.s.scan.1 }, ?_, ?_, ?_, ?_⟩
  · simp only [Parser.scan, h.step, h1]; rfl
  · rw [h1]
  · rw [h1]
  · exact ⟨h.hbe, h.hmax, h.ibe, h.ico, h.step, h2, by rw [show ({ p with s := p.s.scan.2, last := p.s.scan.1 } : Parser).s.r.cap = p.s.scan.2.r.cap from rfl, h3]; exact h.cap, hl⟩

/-- the scan of a message that does not fit the buffer -/
theorem parser_scan_full {be : Bool} {max : Int} {cap : Nat} {p : Parser} (h : PInv be max cap p) (hc : (cap : Int) < toInt p.s.msglen)
    (h60 : (pread p.s.abs.inp).1 = some 60) (hr : p.s.ready = true) :
    ∃ p', p.scan = (⟨.EOF, front cap p.s.abs.inp⟩, p') ∧ p'.s.abs = p.s.abs ∧ PInv be max cap p' := by
  obtain ⟨h1, h2, h3, h4⟩ := scan_full p.s h.ok h.len (by rw [h.cap]; exact hc) h60 hr
  have hl : p.s.scan.2.msglen = p.s.msglen := congrArg PS.msglen h2
  refine ⟨{ p with s := p.s.scan.2, last := p.s.scan.1 }, ?_, h2, ?_⟩
  · simp only [Parser.scan, h.step]
    rw [h1, h.cap]; rfl
  · exact ⟨h.hbe, h.hmax, h.ibe, h.ico, h.step, h3, h4.trans h.cap, by
      show p.s.scan.2.msglen < 2 ^ 64
      rw [hl]; exact h.len⟩

theorem parser_parseMsg {be : Bool} {max : Int} {cap : Nat} {p : Parser} (h : PInv be max cap p) (lit : Bytes) :
    ∃ p', p.parseMsg lit = some (pmsg be lit, p') ∧ p'.s = p.s ∧ PInv be max cap p' := by
  obtain ⟨m', e, e1, e2⟩ := parse_eq p.internal lit
  refine ⟨{ p with internal := m' }, ?_, rfl, ⟨h.hbe, h.hmax, e1.trans h.ibe, e2.trans h.ico, h.step, h.ok, h.cap, h.len⟩⟩
  simp only [Parser.parseMsg, e, pmsg, parse1_eq, h.ibe, h.ico]

theorem runLoop_spec {be : Bool} {max : Int} {cap : Nat} (fuel : Nat) (p : Parser) (inp : Events) (hf : nb inp < fuel)
    (hrel : ∃ p1, p.scan = ((pscan ⟨inp, 0, false⟩).1, p1) ∧ p1.s.abs = (pscan ⟨inp, 0, false⟩).2 ∧ PInv be max cap p1) :
    ∃ p', runLoop fuel p = some ((prunc be max cap inp).1, p') ∧ p'.s.r.abs = (prunc be max cap inp).2 ∧ PInv be max cap p' := by
  induction fuel generalizing p inp with
  | zero => omega
  | succ fuel ih =>
    obtain ⟨p1, h1, h2, hi1⟩ := hrel
    have sp1 := pscan_spec ⟨inp, 0, false⟩
    rw [prunc, runLoop, h1]
    generalize pscan ⟨inp, 0, false⟩ = s1 at *
    simp only []
    have hm1 : p1.s.msglen = s1.2.msglen := by rw [← h2]; rfl
    have ha1 : p1.s.r.abs = s1.2.inp := by rw [← h2]; rfl
    by_cases c1 : s1.1.typ ≠ .MSGLEN
    · rw [if_pos c1, if_pos c1]; exact ⟨p1, rfl, ha1, hi1⟩
    rw [if_neg c1, if_neg c1, hm1, hi1.hmax]
    by_cases c2 : toInt s1.2.msglen > max
    · rw [if_pos c2, if_pos c2]; exact ⟨p1, rfl, ha1, hi1⟩
    rw [if_neg c2, if_neg c2]
    obtain ⟨p2, g1, g2, -, hi2⟩ := parser_scan hi1 (Or.inr (Or.inr (by rw [h2]; exact sp1.num (by simpa using c1))))
    have sp2 := pscan_spec s1.2
    rw [h2] at g1 g2
    rw [g1]
    generalize pscan s1.2 = s2 at *
    simp only []
    have hm2 : p2.s.msglen = s2.2.msglen := by rw [← g2]; rfl
    have ha2 : p2.s.r.abs = s2.2.inp := by rw [← g2]; rfl
    by_cases c3 : s2.1.typ ≠ .WS
    · rw [if_pos c3, if_pos c3]; exact ⟨p2, rfl, ha2, hi2⟩
    rw [if_neg c3, if_neg c3]
    by_cases cf : (cap : Int) < toInt s2.2.msglen ∧ (pread s2.2.inp).1 = some 60
    · rw [if_pos cf]
      obtain ⟨p3, k1, k2, hi3⟩ := parser_scan_full hi2 (by rw [hm2]; exact cf.1) (by rw [g2]; exact cf.2) (by
        have : p2.s.ready = s2.2.ready := by rw [← g2]; rfl
        rw [this]; exact sp2.wsr (by simpa using c3))
      rw [g2] at k1 k2
      have hm3 : p3.s.msglen = s2.2.msglen := by rw [← k2]; rfl
      have ha3 : p3.s.r.abs = s2.2.inp := by rw [← k2]; rfl
      obtain ⟨p4, q1, q2, hi4⟩ := parser_parseMsg hi3 (front cap s2.2.inp)
      have hlit : ((front cap s2.2.inp).length : Int) < toInt s2.2.msglen := by
        have := front_length cap s2.2.inp
        omega
      rw [k1]
      simp only [hm3, hi3.hbe, q1]
      rw [if_pos (by simp)]
      cases be with
      | true =>
        rw [if_pos ⟨hlit, rfl⟩, if_pos rfl]
        refine ⟨p4, ?_, by rw [q2]; exact ha3, hi4⟩
        cases (pmsg true (front cap s2.2.inp)).err <;> rfl
      | false =>
        rw [if_neg (by simp), if_neg (by simp)]
        exact ⟨p3, rfl, ha3, hi3⟩
    rw [if_neg cf]
    obtain ⟨p3, k1, k2, -, hi3⟩ := parser_scan hi2 (by
      rw [hm2, g2]
      by_cases h : (pread s2.2.inp).1 = some 60
      · left
        have : ¬ (cap : Int) < toInt s2.2.msglen := fun hh => cf ⟨hh, h⟩
        omega
      · exact Or.inr (Or.inl h))
    have sp3 := pscan_spec s2.2
    rw [g2] at k1 k2
    rw [k1]
    generalize pscan s2.2 = s3 at *
    simp only []
    have hm3 : p3.s.msglen = s3.2.msglen := by rw [← k2]; rfl
    have ha3 : p3.s.r.abs = s3.2.inp := by rw [← k2]; rfl
    rw [hm3, hi3.hbe]
    obtain ⟨p4, q1, q2, hi4⟩ := parser_parseMsg hi3 s3.1.lit
    have ha4 : p4.s.r.abs = s3.2.inp := by rw [q2]; exact ha3
    rw [q1]
    simp only []
    by_cases c4 : s3.1.typ ≠ .SYSLOGMSG
    · rw [if_pos c4, if_pos c4]
      by_cases c5 : (s3.1.lit.length : Int) < toInt s3.2.msglen ∧ be = true
      · rw [if_pos c5, if_pos c5]
        refine ⟨p4, ?_, ha4, hi4⟩
        cases (pmsg be s3.1.lit).err <;> rfl
      · rw [if_neg c5, if_neg c5]; exact ⟨p3, rfl, ha3, hi3⟩
    rw [if_neg c4, if_neg c4, hi4.hbe]
    by_cases c6 : be = false ∧ (pmsg be s3.1.lit).err ≠ none
    · rw [if_pos c6, if_pos c6]
      refine ⟨p4, ?_, ha4, hi4⟩
      rw [if_neg (by rintro (h | h); · simp [c6.1] at h
                     · exact c6.2 h)]
      rfl
    rw [if_neg c6, if_neg c6]
    have hor : be = true ∨ (pmsg be s3.1.lit).err = none := by
      cases hb : be with
      | true => exact Or.inl rfl
      | false =>
        right
        rw [hb] at c6
        cases he : (pmsg false s3.1.lit).err with
        | none => rfl
        | some e => exact absurd ⟨rfl, by simp [he]⟩ c6
    rw [if_pos hor]
    obtain ⟨m1, m2, m3, m4⟩ := sp3.msg (by simpa using c4)
    have habs : p4.s.abs = s3.2 := by rw [q2, k2]
    obtain ⟨p5, r1, r2, r3, hi5⟩ := parser_scan hi4 (Or.inr (Or.inr (by rw [habs]; exact m4)))
    rw [habs] at r1 r2 r3
    rw [r1]
    have hlt : s3.2.inp.length < inp.length := by
      have := sp1.len; have := sp2.len; simp only [] at *; omega
    simp only []
    by_cases c7 : (pscan s3.2).1.typ = .EOF
    · rw [if_pos c7, if_pos c7]; exact ⟨p5, rfl, by rw [← r2]; rfl, hi5⟩
    rw [if_neg c7, if_neg c7, if_pos hlt]
    have hs3 : s3.2 = ⟨s3.2.inp, 0, false⟩ := by
      rw [show s3.2 = ⟨s3.2.inp, s3.2.msglen, s3.2.ready⟩ from rfl, m3, m4]
    obtain ⟨p6, t1, t2, hi6⟩ := ih p5.unscan s3.2.inp (by
        have := sp1.bytes; have := sp2.bytes; simp only [] at *; omega) ⟨{ p5.unscan with stepback := false }, by
          rw [← hs3]; simp [Parser.scan, Parser.unscan, r3], by rw [← hs3]; exact r2,
          ⟨hi5.hbe, hi5.hmax, hi5.ibe, hi5.ico, rfl, hi5.ok, hi5.cap, hi5.len⟩⟩
    rw [t1]
    exact ⟨p6, rfl, t2, hi6⟩

/-- what a schedule of reads delivers -/
def delivered (sched : List Read) : Events := trim (ev 100 sched)

/-- a parser between two calls of `Parse` -/
structure Idle (be : Bool) (max : Int) (p : Parser) : Prop where
  hbe : p.bestEffort = be
  hmax : p.maxMessageLength = max
  ibe : p.internal.bestEffort = be
  ico : p.internal.compliantMsg = false
  step : p.stepback = false

/-- the size of the buffer that `Parse` makes -/
def bufSize (max : Int) : Nat := if wrapInt (max + 20) < 16 then 16 else (wrapInt (max + 20)).toNat

theorem parse_idle_cap {be : Bool} {max : Int} {p : Parser} (h : Idle be max p) (sched : List Read) :
    ∃ p', p.parse sched = some ((prunc be max (bufSize max) (delivered sched)).1, p') ∧ Idle be max p' := by
  have habs : (newScanner sched p.maxMessageLength).abs = ⟨delivered sched, 0, false⟩ := by
    simp [newScanner, newReader, Scanner.abs, Reader.abs, delivered]
  have hi : PInv be max (bufSize max) { p with s := newScanner sched p.maxMessageLength } := by
    refine ⟨h.hbe, h.hmax, h.ibe, h.ico, h.step, ⟨?_, by simp [newScanner, newReader]⟩, ?_, Nat.two_pow_pos 64⟩
    · simp only [newScanner, newReader]; split <;> omega
    · simp only [newScanner, newReader, h.hmax, bufSize]
  obtain ⟨p1, h1, h2, -, hi1⟩ := parser_scan hi (Or.inr (Or.inr rfl))
  rw [habs] at h1 h2
  obtain ⟨p', h3, -, hi'⟩ := runLoop_spec (be := be) (max := max) ((newScanner sched p.maxMessageLength).r.remaining + 1)
    { p with s := newScanner sched p.maxMessageLength } (delivered sched)
    (by
      have : nb (delivered sched) = (newScanner sched p.maxMessageLength).r.remaining := by
        rw [← nb_abs]; exact congrArg nb (congrArg PS.inp habs).symm
      omega) ⟨p1, h1, h2, hi1⟩
  exact ⟨p', h3, ⟨hi'.hbe, hi'.hmax, hi'.ibe, hi'.ico, hi'.step⟩⟩

theorem bufSize_ge {max : Int} (h : max < 2 ^ 63 - 20) : max ≤ bufSize max := by
  unfold bufSize wrapInt
  by_cases c : (max + 20 + 2 ^ 63) % 2 ^ 64 - 2 ^ 63 < 16
  · rw [if_pos c]; omega
  · rw [if_neg c]; omega

theorem parse_idle {be : Bool} {max : Int} {p : Parser} (h : Idle be max p) (hm : max < 2 ^ 63 - 20) (sched : List Read) :
    ∃ p', p.parse sched = some (prun be max (delivered sched), p') ∧ Idle be max p' := by
  obtain ⟨p', h1, h2⟩ := parse_idle_cap h sched
  rw [prunc_prun be max _ (bufSize_ge hm)] at h1
  exact ⟨p', h1, h2⟩

/-- `Parse` on a `*bufio.Reader` with a buffer that is large enough: the results, and what is left in it -/
theorem parseOn_idle {be : Bool} {max : Int} {p : Parser} (h : Idle be max p) (rd : Reader) (hok : rd.Ok)
    (hc : wrapInt (max + 20) ≤ rd.cap) :
    ∃ p', p.parseOn rd = some ((prunc be max rd.cap rd.abs).1, p') ∧ p'.s.r.abs = (prunc be max rd.cap rd.abs).2 ∧
      p'.s.r.Ok ∧ p'.s.r.cap = rd.cap ∧ Idle be max p' := by
  have hs : newScannerOn rd p.maxMessageLength = { r := rd } := by
    simp only [newScannerOn, newReaderOn, h.hmax, if_pos hc]
  have hi : PInv be max rd.cap { p with s := { r := rd } } :=
    ⟨h.hbe, h.hmax, h.ibe, h.ico, h.step, hok, rfl, Nat.two_pow_pos 64⟩
  obtain ⟨p1, h1, h2, -, hi1⟩ := parser_scan hi (Or.inr (Or.inr rfl))
  obtain ⟨p', h3, h4, hi'⟩ := runLoop_spec (be := be) (max := max) (rd.remaining + 1) { p with s := { r := rd } } rd.abs
    (by rw [nb_abs]; omega) ⟨p1, h1, h2, hi1⟩
  refine ⟨p', ?_, h4, hi'.ok, hi'.cap, ⟨hi'.hbe, hi'.hmax, hi'.ibe, hi'.ico, hi'.step⟩⟩
  simp only [Parser.parseOn, hs]
  exact h3

end Verif.Octet
