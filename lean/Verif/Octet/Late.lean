import Verif.Octet.Platform

/-! # The parser on events, with options that are applied after `NewParser`

As `Octet/Run.lean`, for a parser that goes on after wrong messages and a message parser that does not keep incomplete ones (`syslog.WithBestEffort()` applied to a
finished parser: octetcounting/parser.go:37-42 is not executed again, octetcounting/parser.go:58-60). -/

namespace Verif.Octet
open Verif.Rfc5424 (parse1 parse_eq parse1_eq resultOf descend)

/-- `run` on events with a buffer of `cap` bytes, when a message with an error is no reason to stop (`go`) and the message parser keeps incomplete messages (`be`): the
results, and what is left -/
def pruncL (go be : Bool) (max : Int) (cap : Nat) (inp : Events) : List Result × Events :=
  let s1 := pscan ⟨inp, 0, false⟩
  if s1.1.typ ≠ .MSGLEN then ([⟨none, some (.notMsgLen s1.1)⟩], s1.2.inp)
  else if toInt s1.2.msglen > max then ([⟨none, some (.tooLong s1.2.msglen max)⟩], s1.2.inp)
  else
    let s2 := pscan s1.2
    if s2.1.typ ≠ .WS then ([⟨none, some (.notWS s2.1)⟩], s2.2.inp)
    else if (cap : Int) < toInt s2.2.msglen ∧ (pread s2.2.inp).1 = some 60 then
      let lit := front cap s2.2.inp
      (if go = true then [⟨(pmsg be lit).msg, some ((pmsg be lit).err.getD (.notMsg ⟨.EOF, lit⟩ s2.2.msglen))⟩]
        else [⟨none, some (.notMsg ⟨.EOF, lit⟩ s2.2.msglen)⟩], s2.2.inp)
    else
      let s3 := pscan s2.2
      if s3.1.typ ≠ .SYSLOGMSG then
        (if (s3.1.lit.length : Int) < toInt s3.2.msglen ∧ go = true then
          [⟨(pmsg be s3.1.lit).msg, some ((pmsg be s3.1.lit).err.getD (.notMsg s3.1 s3.2.msglen))⟩]
        else [⟨none, some (.notMsg s3.1 s3.2.msglen)⟩], s3.2.inp)
      else if go = false ∧ (pmsg be s3.1.lit).err ≠ none then ([⟨none, (pmsg be s3.1.lit).err⟩], s3.2.inp)
      else if (pscan s3.2).1.typ = .EOF then ([pmsg be s3.1.lit], (pscan s3.2).2.inp)
      else if s3.2.inp.length < inp.length then
        (pmsg be s3.1.lit :: (pruncL go be max cap s3.2.inp).1, (pruncL go be max cap s3.2.inp).2)
      else ([], s3.2.inp)
termination_by inp.length

/-- invariant of the parser between two scans -/
structure PInvL (go be : Bool) (max : Int) (cap : Nat) (p : Parser) : Prop where
  hgo : p.bestEffort = go
  hmax : p.maxMessageLength = max
  ibe : p.internal.bestEffort = be
  ico : p.internal.compliantMsg = false
  step : p.stepback = false
  ok : p.s.r.Ok
  cap : p.s.r.cap = cap
  len : p.s.msglen < 2 ^ 64

theorem parser_scanL {go be : Bool} {max : Int} {cap : Nat} {p : Parser} (h : PInvL go be max cap p) (hc : toInt p.s.msglen ≤ cap ∨ (pread p.s.abs.inp).1 ≠ some 60 ∨ p.s.abs.ready = false) :
    ∃ p', p.scan = ((pscan p.s.abs).1, p') ∧ p'.s.abs = (pscan p.s.abs).2 ∧ p'.last = (pscan p.s.abs).1 ∧ PInvL go be max cap p' := by
  obtain ⟨h1, h2, h3⟩ := scan_spec p.s h.ok (by rw [h.cap]; exact hc) h.len
  have hl := pscan_msglen p.s.abs h.len
  rw [h1] at hl
  refine ⟨{ p with s := p.s.scan.2, last := p.s.scan.1 }, ?_, ?_, ?_, ?_⟩
  · simp only [Parser.scan, h.step, h1]; rfl
  · rw [h1]
  · rw [h1]
  · exact ⟨h.hgo, h.hmax, h.ibe, h.ico, h.step, h2, by rw [show ({ p with s := p.s.scan.2, last := p.s.scan.1 } : Parser).s.r.cap = p.s.scan.2.r.cap from rfl, h3]; exact h.cap, hl⟩

/-- the scan of a message that does not fit the buffer -/
theorem parser_scan_fullL {go be : Bool} {max : Int} {cap : Nat} {p : Parser} (h : PInvL go be max cap p) (hc : (cap : Int) < toInt p.s.msglen)
    (h60 : (pread p.s.abs.inp).1 = some 60) (hr : p.s.ready = true) :
    ∃ p', p.scan = (⟨.EOF, front cap p.s.abs.inp⟩, p') ∧ p'.s.abs = p.s.abs ∧ PInvL go be max cap p' := by
  obtain ⟨h1, h2, h3, h4⟩ := scan_full p.s h.ok h.len (by rw [h.cap]; exact hc) h60 hr
  have hl : p.s.scan.2.msglen = p.s.msglen := congrArg PS.msglen h2
  refine ⟨{ p with s := p.s.scan.2, last := p.s.scan.1 }, ?_, h2, ?_⟩
  · simp only [Parser.scan, h.step]
    rw [h1, h.cap]; rfl
  · exact ⟨h.hgo, h.hmax, h.ibe, h.ico, h.step, h3, h4.trans h.cap, by
      show p.s.scan.2.msglen < 2 ^ 64
      rw [hl]; exact h.len⟩

theorem parser_parseMsgL {go be : Bool} {max : Int} {cap : Nat} {p : Parser} (h : PInvL go be max cap p) (lit : Bytes) :
    ∃ p', p.parseMsg lit = some (pmsg be lit, p') ∧ p'.s = p.s ∧ PInvL go be max cap p' := by
  obtain ⟨m', e, e1, e2⟩ := parse_eq p.internal lit
  refine ⟨{ p with internal := m' }, ?_, rfl, ⟨h.hgo, h.hmax, e1.trans h.ibe, e2.trans h.ico, h.step, h.ok, h.cap, h.len⟩⟩
  simp only [Parser.parseMsg, e, pmsg, parse1_eq, h.ibe, h.ico]

theorem runLoop_specL {go be : Bool} {max : Int} {cap : Nat} (fuel : Nat) (p : Parser) (inp : Events) (hf : nb inp < fuel)
    (hrel : ∃ p1, p.scan = ((pscan ⟨inp, 0, false⟩).1, p1) ∧ p1.s.abs = (pscan ⟨inp, 0, false⟩).2 ∧ PInvL go be max cap p1) :
    ∃ p', runLoop fuel p = some ((pruncL go be max cap inp).1, p') ∧ p'.s.r.abs = (pruncL go be max cap inp).2 ∧ PInvL go be max cap p' := by
  induction fuel generalizing p inp with
  | zero => omega
  | succ fuel ih =>
    obtain ⟨p1, h1, h2, hi1⟩ := hrel
    have sp1 := pscan_spec ⟨inp, 0, false⟩
    rw [pruncL, runLoop, h1]
    generalize pscan ⟨inp, 0, false⟩ = s1 at *
    simp only []
    have hm1 : p1.s.msglen = s1.2.msglen := by rw [← h2]; rfl
    have ha1 : p1.s.r.abs = s1.2.inp := by rw [← h2]; rfl
    by_cases c1 : s1.1.typ ≠ .MSGLEN
    · rw [if_pos c1, if_pos c1]; exact ⟨p1, rfl, ha1, hi1⟩
    rw [if_neg c1, if_neg c1, hm1, hi1.hmax]
    by_cases c2 : toInt s1.2.msglen > max
    · rw [if_pos c2, if_pos c2]; exact ⟨p1, rfl, ha1, hi1⟩
    rw [if_neg c2, if_neg c2]
    obtain ⟨p2, g1, g2, -, hi2⟩ := parser_scanL hi1 (Or.inr (Or.inr (by rw [h2]; exact sp1.num (by simpa using c1))))
    have sp2 := pscan_spec s1.2
    rw [h2] at g1 g2
    rw [g1]
    generalize pscan s1.2 = s2 at *
    simp only []
    have hm2 : p2.s.msglen = s2.2.msglen := by rw [← g2]; rfl
    have ha2 : p2.s.r.abs = s2.2.inp := by rw [← g2]; rfl
    by_cases c3 : s2.1.typ ≠ .WS
    · rw [if_pos c3, if_pos c3]; exact ⟨p2, rfl, ha2, hi2⟩
    rw [if_neg c3, if_neg c3]
    by_cases cf : (cap : Int) < toInt s2.2.msglen ∧ (pread s2.2.inp).1 = some 60
    · rw [if_pos cf]
      obtain ⟨p3, k1, k2, hi3⟩ := parser_scan_fullL hi2 (by rw [hm2]; exact cf.1) (by rw [g2]; exact cf.2) (by
        have : p2.s.ready = s2.2.ready := by rw [← g2]; rfl
        rw [this]; exact sp2.wsr (by simpa using c3))
      rw [g2] at k1 k2
      have hm3 : p3.s.msglen = s2.2.msglen := by rw [← k2]; rfl
      have ha3 : p3.s.r.abs = s2.2.inp := by rw [← k2]; rfl
      obtain ⟨p4, q1, q2, hi4⟩ := parser_parseMsgL hi3 (front cap s2.2.inp)
      have hlit : ((front cap s2.2.inp).length : Int) < toInt s2.2.msglen := by
        have := front_length cap s2.2.inp
        omega
      rw [k1]
      simp only [hm3, hi3.hgo, q1]
      rw [if_pos (by simp)]
      cases go with
      | true =>
        rw [if_pos ⟨hlit, rfl⟩, if_pos rfl]
        refine ⟨p4, ?_, by rw [q2]; exact ha3, hi4⟩
        cases (pmsg be (front cap s2.2.inp)).err <;> rfl
      | false =>
        rw [if_neg (by simp), if_neg (by simp)]
        exact ⟨p3, rfl, ha3, hi3⟩
    rw [if_neg cf]
    obtain ⟨p3, k1, k2, -, hi3⟩ := parser_scanL hi2 (by
      rw [hm2, g2]
      by_cases h : (pread s2.2.inp).1 = some 60
      · left
        have : ¬ (cap : Int) < toInt s2.2.msglen := fun hh => cf ⟨hh, h⟩
        omega
      · exact Or.inr (Or.inl h))
    have sp3 := pscan_spec s2.2
    rw [g2] at k1 k2
    rw [k1]
    generalize pscan s2.2 = s3 at *
    simp only []
    have hm3 : p3.s.msglen = s3.2.msglen := by rw [← k2]; rfl
    have ha3 : p3.s.r.abs = s3.2.inp := by rw [← k2]; rfl
    rw [hm3, hi3.hgo]
    obtain ⟨p4, q1, q2, hi4⟩ := parser_parseMsgL hi3 s3.1.lit
    have ha4 : p4.s.r.abs = s3.2.inp := by rw [q2]; exact ha3
    rw [q1]
    simp only []
    by_cases c4 : s3.1.typ ≠ .SYSLOGMSG
    · rw [if_pos c4, if_pos c4]
      by_cases c5 : (s3.1.lit.length : Int) < toInt s3.2.msglen ∧ go = true
      · rw [if_pos c5, if_pos c5]
        refine ⟨p4, ?_, ha4, hi4⟩
        cases (pmsg be s3.1.lit).err <;> rfl
      · rw [if_neg c5, if_neg c5]; exact ⟨p3, rfl, ha3, hi3⟩
    rw [if_neg c4, if_neg c4, hi4.hgo]
    by_cases c6 : go = false ∧ (pmsg be s3.1.lit).err ≠ none
    · rw [if_pos c6, if_pos c6]
      refine ⟨p4, ?_, ha4, hi4⟩
      rw [if_neg (by rintro (h | h); · simp [c6.1] at h
                     · exact c6.2 h)]
      rfl
    rw [if_neg c6, if_neg c6]
    have hor : go = true ∨ (pmsg be s3.1.lit).err = none := by
      cases hb : go with
      | true => exact Or.inl rfl
      | false =>
        right
        rw [hb] at c6
        cases he : (pmsg be s3.1.lit).err with
        | none => rfl
        | some e => exact absurd ⟨rfl, by simp [he]⟩ c6
    rw [if_pos hor]
    obtain ⟨m1, m2, m3, m4⟩ := sp3.msg (by simpa using c4)
    have habs : p4.s.abs = s3.2 := by rw [q2, k2]
    obtain ⟨p5, r1, r2, r3, hi5⟩ := parser_scanL hi4 (Or.inr (Or.inr (by rw [habs]; exact m4)))
    rw [habs] at r1 r2 r3
    rw [r1]
    have hlt : s3.2.inp.length < inp.length := by
      have := sp1.len; have := sp2.len; simp only [] at *; omega
    simp only []
    by_cases c7 : (pscan s3.2).1.typ = .EOF
    · rw [if_pos c7, if_pos c7]; exact ⟨p5, rfl, by rw [← r2]; rfl, hi5⟩
    rw [if_neg c7, if_neg c7, if_pos hlt]
    have hs3 : s3.2 = ⟨s3.2.inp, 0, false⟩ := by
      rw [show s3.2 = ⟨s3.2.inp, s3.2.msglen, s3.2.ready⟩ from rfl, m3, m4]
    obtain ⟨p6, t1, t2, hi6⟩ := ih p5.unscan s3.2.inp (by
        have := sp1.bytes; have := sp2.bytes; simp only [] at *; omega) ⟨{ p5.unscan with stepback := false }, by
          rw [← hs3]; simp [Parser.scan, Parser.unscan, r3], by rw [← hs3]; exact r2,
          ⟨hi5.hgo, hi5.hmax, hi5.ibe, hi5.ico, rfl, hi5.ok, hi5.cap, hi5.len⟩⟩
    rw [t1]
    exact ⟨p6, rfl, t2, hi6⟩

theorem parse_idle_capL {go be : Bool} {max : Int} {p : Parser} (h : IdleB go be max p) (sched : List Read) :
    ∃ p', p.parse sched = some ((pruncL go be max (bufSize max) (delivered sched)).1, p') ∧ IdleB go be max p' := by
  have habs : (newScanner sched p.maxMessageLength).abs = ⟨delivered sched, 0, false⟩ := by
    simp [newScanner, newReader, Scanner.abs, Reader.abs, delivered]
  have hi : PInvL go be max (bufSize max) { p with s := newScanner sched p.maxMessageLength } := by
    refine ⟨h.hgo, h.hmax, h.ibe, h.ico, h.step, ⟨?_, by simp [newScanner, newReader]⟩, ?_, Nat.two_pow_pos 64⟩
    · simp only [newScanner, newReader]; split <;> omega
    · simp only [newScanner, newReader, h.hmax, bufSize]
  obtain ⟨p1, h1, h2, -, hi1⟩ := parser_scanL hi (Or.inr (Or.inr rfl))
  rw [habs] at h1 h2
  obtain ⟨p', h3, -, hi'⟩ := runLoop_specL (go := go) (be := be) (max := max) ((newScanner sched p.maxMessageLength).r.remaining + 1)
    { p with s := newScanner sched p.maxMessageLength } (delivered sched)
    (by
      have : nb (delivered sched) = (newScanner sched p.maxMessageLength).r.remaining := by
        rw [← nb_abs]; exact congrArg nb (congrArg PS.inp habs).symm
      omega) ⟨p1, h1, h2, hi1⟩
  exact ⟨p', h3, ⟨hi'.hgo, hi'.hmax, hi'.ibe, hi'.ico, hi'.step⟩⟩

end Verif.Octet
