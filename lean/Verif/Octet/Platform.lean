import Verif.Octet.Spec
import Verif.Spec.OctetPlatform

/-!
# Octet counting with an `int` of any number of bits

`Verif/Octet/Model.lean` is the code on a platform with 64 bits. Here the conversions `int(...)` and the sum `maxLength+20` have a
parameter `bits`: Go has platforms where `int` has 32 bits (386, arm, mips).
-/

namespace Verif.Octet
open Verif.Spec
open Verif.Rfc5424 (parse1 parse_eq parse1_eq resultOf descend)

/-! ## The model -/

/-- an `int` of `bits` bits, two's complement -/
def wrapOn (bits : Nat) (n : Int) : Int := n.bmod (2 ^ bits)

/-- `NewScanner` (octetcounting/scanner.go:37-41) -/
def newScannerB (bits : Nat) (sched : List Read) (maxLength : Int) : Scanner := { r := newReader (wrapOn bits (maxLength + 20)) sched }

/-- `Scanner.scanSyslogMsg` (octetcounting/scanner.go:122-144). With 32 bits `n` can be 0: `Discard(0)` changes nothing. -/
def Scanner.scanSyslogMsgB (bits : Nat) (s : Scanner) : Token × Scanner :=
  match s.r.peek (wrapOn bits s.msglen) with
  | (b, false, r) => (⟨.EOF, b⟩, { s with r := r })
  | (b, true, r) => (⟨.SYSLOGMSG, b⟩, { s with r := r.discard (wrapOn bits s.msglen).toNat, ready := false, msglen := 0 })

/-- `Scanner.Scan` (octetcounting/scanner.go:59-93) -/
def Scanner.scanB (bits : Nat) (s : Scanner) : Token × Scanner :=
  match s.read with
  | (b, s1) =>
    if isNonZeroDigit b then { s1.unread with ready := false }.scanMsgLen
    else if b = 0 then (⟨.EOF, []⟩, { s1 with ready := false })
    else if b = 32 then (⟨.WS, [32]⟩, { s1 with ready := true })
    else if b = 60 ∧ s1.msglen > 0 ∧ s1.ready = true then s1.unread.scanSyslogMsgB bits
    else (⟨.ILLEGAL, [b]⟩, s1)

/-- `parser.scan` (octetcounting/parser.go:154-168) -/
def Parser.scanB (bits : Nat) (p : Parser) : Token × Parser :=
  if p.stepback then (p.last, { p with stepback := false })
  else
    match p.s.scanB bits with
    | (tok, s) => (tok, { p with s := s, last := tok })

/-- The loop of `run` (octetcounting/parser.go:77-141), see `runLoop` -/
def runLoopB (bits : Nat) : Nat → Parser → Option (List Result × Parser)
  | 0, _ => none
  | fuel + 1, p =>
    match p.scanB bits with
    | (tok, p) =>
    if tok.typ ≠ .MSGLEN then some ([⟨none, some (.notMsgLen tok)⟩], p)
    else if wrapOn bits p.s.msglen > p.maxMessageLength then
      some ([⟨none, some (.tooLong p.s.msglen p.maxMessageLength)⟩], p)
    else
    match p.scanB bits with
    | (tok, p) =>
    if tok.typ ≠ .WS then some ([⟨none, some (.notWS tok)⟩], p)
    else
    match p.scanB bits with
    | (tok, p) =>
    if tok.typ ≠ .SYSLOGMSG then
      let e := Error.notMsg tok p.s.msglen
      if (tok.lit.length : Int) < wrapOn bits p.s.msglen ∧ p.bestEffort = true then
        match p.parseMsg tok.lit with
        | none => none
        | some (result, p) =>
          some ([⟨result.msg, match result.err with | none => some e | some e' => some e'⟩], p)
      else some ([⟨none, some e⟩], p)
    else
    match p.parseMsg tok.lit with
    | none => none
    | some (result, p) =>
      let out := if p.bestEffort = true ∨ result.err = none then [result] else []
      if p.bestEffort = false ∧ result.err ≠ none then some (out ++ [⟨none, result.err⟩], p)
      else
      match p.scanB bits with
      | (tok, p) =>
      if tok.typ = .EOF then some (out, p)
      else
        match runLoopB bits fuel p.unscan with
        | none => none
        | some (rest, p) => some (out ++ rest, p)

/-- `parser.Parse` (octetcounting/parser.go:72-75) -/
def Parser.parseB (bits : Nat) (p : Parser) (sched : List Read) : Option (List Result × Parser) :=
  let s := newScannerB bits sched p.maxMessageLength
  runLoopB bits (s.r.remaining + 1) { p with s := s }

/-! ## With 64 bits it is the model of `Verif/Octet/Model.lean` -/

theorem wrapOn_64 {n : Nat} (h : n < 2 ^ 64) : wrapOn 64 n = toInt n := by
  unfold wrapOn toInt
  rw [Int.bmod_def]
  split <;> split <;> omega

theorem wrapOn_64_int (n : Int) : wrapOn 64 n = wrapInt n := by
  unfold wrapOn wrapInt
  rw [Int.bmod_def]
  split <;> omega

theorem scanMsgLen_len (s : Scanner) : ∃ w, s.scanMsgLen.2.msglen = parseUint w 0 := ⟨_, rfl⟩

def readMsg (s : Scanner) (z : Int) : Token × Scanner :=
  match s.r.peek z with
  | (b, false, r) => (⟨.EOF, b⟩, { s with r := r })
  | (b, true, r) => (⟨.SYSLOGMSG, b⟩, { s with r := r.discard z.toNat, ready := false, msglen := 0 })

theorem scanSyslogMsgB_eq (bits : Nat) (s : Scanner) : s.scanSyslogMsgB bits = readMsg s (wrapOn bits s.msglen) := rfl
theorem scanSyslogMsg_eq (s : Scanner) : s.scanSyslogMsg = readMsg s (toInt s.msglen) := rfl

theorem scanB_64 (s : Scanner) (h : s.msglen < 2 ^ 64) : s.scanB 64 = s.scan := by
  unfold Scanner.scanB Scanner.scan
  cases hr : s.read with
  | mk b s1 =>
    have h1 : s1.msglen = s.msglen := by
      have : s1 = s.read.2 := by rw [hr]
      rw [this]; unfold Scanner.read; split <;> rfl
    have e : s1.unread.scanSyslogMsgB 64 = s1.unread.scanSyslogMsg := by
      have hu : s1.unread.msglen < 2 ^ 64 := by rw [show s1.unread.msglen = s1.msglen from rfl, h1]; exact h
      rw [scanSyslogMsgB_eq, scanSyslogMsg_eq, wrapOn_64 hu]
    simp only [e]

theorem scan_len (B : Nat) (hB : B = 2 ^ 64) (s : Scanner) (h : s.msglen < B) : s.scan.2.msglen < B := by
  unfold Scanner.scan
  cases hr : s.read with
  | mk b s1 =>
    have h1 : s1.msglen = s.msglen := by
      have : s1 = s.read.2 := by rw [hr]
      rw [this]; unfold Scanner.read; split <;> rfl
    have h1' : s1.msglen < B := by omega
    simp only []
    split
    · obtain ⟨w, hw⟩ := scanMsgLen_len { s1.unread with ready := false }
      rw [hw, hB]; exact parseUint_lt w 0 (Nat.two_pow_pos 64)
    · split
      · exact h1'
      · split
        · exact h1'
        · split
          · unfold Scanner.scanSyslogMsg
            split
            · exact h1'
            · exact Nat.lt_of_le_of_lt (Nat.zero_le _) h
          · exact h1'

theorem parser_scanB_64 (p : Parser) (h : p.s.msglen < 2 ^ 64) : p.scanB 64 = p.scan ∧ p.scan.2.s.msglen < 2 ^ 64 := by
  unfold Parser.scanB Parser.scan
  split
  · exact ⟨rfl, h⟩
  · rw [scanB_64 p.s h]
    exact ⟨rfl, scan_len _ rfl p.s h⟩

theorem runLoopB_64 (fuel : Nat) (p : Parser) (h : p.s.msglen < 2 ^ 64) : runLoopB 64 fuel p = runLoop fuel p := by
  induction fuel generalizing p with
  | zero => rfl
  | succ fuel ih =>
    have hpm : ∀ (p : Parser) (lit : Bytes) (x : Result × Parser), p.parseMsg lit = some x → x.2.s = p.s := by
      intro p lit x hx
      unfold Parser.parseMsg at hx
      split at hx
      · simp at hx
      · simp only [Option.some.injEq] at hx; rw [← hx]
    rw [runLoopB, runLoop]
    obtain ⟨e1, l1⟩ := parser_scanB_64 p h
    rw [e1]
    generalize p.scan = q1 at *
    obtain ⟨t1, p1⟩ := q1
    simp only [] at l1 ⊢
    rw [wrapOn_64 l1]
    split
    · rfl
    split
    · rfl
    obtain ⟨e2, l2⟩ := parser_scanB_64 p1 l1
    rw [e2]
    generalize p1.scan = q2 at *
    obtain ⟨t2, p2⟩ := q2
    simp only [] at l2 ⊢
    split
    · rfl
    obtain ⟨e3, l3⟩ := parser_scanB_64 p2 l2
    rw [e3]
    generalize p2.scan = q3 at *
    obtain ⟨t3, p3⟩ := q3
    simp only [] at l3 ⊢
    rw [wrapOn_64 l3]
    split
    · rfl
    cases hx : p3.parseMsg t3.lit with
    | none => rfl
    | some x =>
      obtain ⟨r, p4⟩ := x
      have l4 : p4.s.msglen < 2 ^ 64 := by rw [hpm _ _ _ hx]; exact l3
      simp only []
      obtain ⟨e5, l5⟩ := parser_scanB_64 p4 l4
      rw [e5]
      generalize p4.scan = q5 at *
      obtain ⟨t5, p5⟩ := q5
      simp only [] at l5 ⊢
      rw [ih p5.unscan l5]
      rfl

theorem parseB_64 (p : Parser) (sched : List Read) : p.parseB 64 sched = p.parse sched := by
  unfold Parser.parseB Parser.parse
  have : newScannerB 64 sched p.maxMessageLength = newScanner sched p.maxMessageLength := by
    unfold newScannerB newScanner
    rw [wrapOn_64_int]
  rw [this]
  exact runLoopB_64 _ _ (Nat.two_pow_pos 64)

/-! ## The scanner and the parser on events -/

/-- `Scan` -/
def pscanB (bits : Nat) (s : PS) : Token × PS :=
  match pread s.inp with
  | (none, r) => (⟨.EOF, []⟩, ⟨r, s.msglen, false⟩)
  | (some b, r) =>
    if isNonZeroDigit b then (⟨.MSGLEN, b :: (pdigits r).1⟩, ⟨(pdigits r).2, parseUint (b :: (pdigits r).1) 0, false⟩)
    else if b = 0 then (⟨.EOF, []⟩, ⟨r, s.msglen, false⟩)
    else if b = 32 then (⟨.WS, [32]⟩, ⟨r, s.msglen, true⟩)
    else if b = 60 ∧ s.msglen > 0 ∧ s.ready = true then
      if 0 ≤ wrapOn bits s.msglen then
        match ppeek (wrapOn bits s.msglen).toNat (some 60 :: r) with
        | (w, false, r') => (⟨.EOF, w⟩, ⟨r', s.msglen, s.ready⟩)
        | (w, true, r') => (⟨.SYSLOGMSG, w⟩, ⟨r'.drop (wrapOn bits s.msglen).toNat, 0, false⟩)
      else (⟨.EOF, []⟩, ⟨some 60 :: r, s.msglen, s.ready⟩)
    else (⟨.ILLEGAL, [b]⟩, ⟨r, s.msglen, s.ready⟩)

theorem scanB_spec (bits : Nat) (s : Scanner) (hok : s.r.Ok) (hcap : wrapOn bits s.msglen ≤ s.r.cap ∨ s.ready = false) :
    pscanB bits s.abs = ((s.scanB bits).1, (s.scanB bits).2.abs) ∧ (s.scanB bits).2.r.Ok ∧ (s.scanB bits).2.r.cap = s.r.cap := by
  obtain ⟨r', h1, h2, h3, h4⟩ := read_spec s hok
  show pscanB bits ⟨s.r.abs, s.msglen, s.ready⟩ =
    ((s.scanB bits).1, ⟨(s.scanB bits).2.r.abs, (s.scanB bits).2.msglen, (s.scanB bits).2.ready⟩) ∧ _
  simp only [Scanner.scanB, h1, pscanB]
  rcases h4 with ⟨h4, h5⟩ | ⟨b, h4, h5, h6, h7, h8⟩
  · rw [h4, h5]
    simp only [show isNonZeroDigit 0 = false by decide, Bool.false_eq_true, if_false, if_true]
    exact ⟨trivial, h2, h3⟩
  · rw [h4, h5]
    simp only []
    cases hz : isNonZeroDigit b with
    | true =>
      simp only [if_true]
      obtain ⟨r2, g1, g2, g3, g4⟩ := unread_ok (s := s) h3 h2 h6 h7 h8
      rw [g1]
      obtain ⟨r3, k1, k2, k3, k4⟩ := read_spec { s with r := r2, ready := false } g4
      simp only [Scanner.scanMsgLen, k1]
      have hp : pread r2.abs = (some b, r'.abs) := by rw [g2]; rfl
      rcases k4 with ⟨k4, -⟩ | ⟨c, k4, k5, -⟩
      · simp only [hp] at k4; simp at k4
      · simp only [hp] at k4
        simp only [Prod.mk.injEq, Option.some.injEq] at k4
        obtain ⟨k4, k6⟩ := k4
        rw [k5, ← k4]
        obtain ⟨r4, e1, e2, e3, e4⟩ := scanDigits_spec (r3.remaining + 1) { s with r := r3, ready := false } [b] k2
          (by rw [nb_abs]; exact Nat.lt_succ_self _)
        simp only [] at e1 e2 e4
        rw [e1]
        simp only [← k6] at e1 e2 ⊢
        refine ⟨?_, e3, ?_⟩
        · simp only [List.singleton_append, e2]
        · rw [e4, k3, g3]
    | false =>
      simp only [Bool.false_eq_true, if_false]
      by_cases hb : b = 0
      · simp only [hb, if_true]; exact ⟨trivial, h2, h3⟩
      · simp only [hb, if_false]
        by_cases hw : b = 32
        · simp only [hw, if_true]; exact ⟨trivial, h2, h3⟩
        · simp only [hw, if_false]
          by_cases hlt : b = 60 ∧ s.msglen > 0 ∧ s.ready = true
          · simp only [if_pos hlt]
            obtain ⟨r2, g1, g2, g3, g4⟩ := unread_ok (s := s) h3 h2 h6 h7 h8
            rw [g1]
            simp only [Scanner.scanSyslogMsgB]
            have hcap : wrapOn bits s.msglen ≤ s.r.cap := by
              rcases hcap with h | h
              · exact h
              · rw [hlt.2.2] at h; simp at h
            generalize wrapOn bits s.msglen = z at *
            by_cases hm : 0 ≤ z
            · rw [if_pos hm]
              obtain ⟨n, rfl⟩ := Int.eq_ofNat_of_zero_le hm
              simp only [Int.toNat_natCast]
              obtain ⟨p1, p2, p3, p4⟩ := peek_spec r2 n g4 (by rw [g3]; omega)
              rw [show (some (60 : UInt8) :: r'.abs) = r2.abs by rw [g2, hlt.1], p1]
              cases hpk : r2.peek (n : Int) with
              | mk w rest =>
                obtain ⟨ok, r3⟩ := rest
                rw [hpk] at p1 p2 p3 p4
                simp only at p1 p2 p3 p4
                cases ok with
                | false => exact ⟨rfl, p3, p2.trans g3⟩
                | true =>
                  obtain ⟨q1, q2⟩ := p4 rfl
                  refine ⟨?_, ⟨by rw [show (r3.discard n).cap = r3.cap from rfl, p2, g3]; exact hok.1, ?_⟩, p2.trans g3⟩
                  · simp only []
                    congr 2
                    rw [Reader.abs, trim_somes, List.drop_append, List.length_map, show n - r3.q.length = 0 by omega,
                      List.drop_zero, Reader.abs, Reader.discard, trim_somes, List.map_drop]
                  · have := p3.2
                    simp only [Reader.discard, List.length_drop]; omega
            · rw [if_neg hm]
              have ht : z < 0 := by omega
              simp only [Reader.peek, ht, if_true]
              exact ⟨by rw [g2, hlt.1], g4, g3⟩
          · simp only [if_neg hlt]; exact ⟨trivial, h2, h3⟩

/-- what the scanner does to its state -/
structure ScanSpecB (s : PS) (t : Token × PS) : Prop where
  len : t.2.inp.length ≤ s.inp.length
  bytes : nb t.2.inp ≤ nb s.inp
  msg : t.1.typ = .SYSLOGMSG → t.2.msglen = 0 ∧ t.2.ready = false
  ws : t.1.typ = .WS → t.2.msglen = s.msglen
  num : t.1.typ = .MSGLEN → t.2.ready = false ∧ t.2.inp.length < s.inp.length ∧ nb t.2.inp < nb s.inp

theorem nb_drop_le (l : Events) (k : Nat) : nb (l.drop k) ≤ nb l :=
  (List.Sublist.filter Option.isSome (List.drop_sublist k l)).length_le

theorem ppeek_le (n : Nat) (l : Events) : (ppeek n l).2.2.length ≤ l.length ∧ nb (ppeek n l).2.2 ≤ nb l := by
  have hpre := front_prefix n l
  have l1 : l.length = (front n l).length + (l.drop (front n l).length).length := by
    conv => lhs; rw [hpre]
    simp
  have l2 : nb l = (front n l).length + nb (l.drop (front n l).length) := by
    conv => lhs; rw [hpre]
    rw [nb_append, nb_somes]
  simp only [ppeek]
  split
  · have e1 := nb_drop_le (l.drop (front n l).length) 1
    rw [List.drop_drop] at e1
    constructor
    · simp only [List.length_append, List.length_map, List.length_drop]; simp only [List.length_drop] at l1; omega
    · simp only [nb_append, nb_somes]; omega
  · exact ⟨Nat.le_refl _, Nat.le_refl _⟩

theorem pscanB_spec (bits : Nat) (s : PS) : ScanSpecB s (pscanB bits s) := by
  obtain ⟨inp, ml, rdy⟩ := s
  simp only [pscanB]
  cases hp : pread inp with
  | mk o r =>
    have hlen : r.length ≤ inp.length ∧ nb r ≤ nb inp := by
      cases inp with
      | nil => simp [pread] at hp; rw [← hp.2]; simp
      | cons x l => cases x <;> simp [pread] at hp <;> rw [← hp.2] <;> simp [nb]
    cases o with
    | none => exact ⟨hlen.1, hlen.2, by simp, by simp, by simp⟩
    | some b =>
      have hi := pread_some hp
      have hi1 : inp.length = r.length + 1 := by rw [hi]; rfl
      have hi2 : nb inp = nb r + 1 := by rw [hi]; simp [nb]
      simp only []
      split
      · have := pdigits_le r
        exact ⟨by simp only []; omega, by simp only []; omega, by simp, by simp, fun _ => ⟨rfl, by simp only []; omega, by simp only []; omega⟩⟩
      · split
        · exact ⟨hlen.1, hlen.2, by simp, by simp, by simp⟩
        · split
          · exact ⟨hlen.1, hlen.2, by simp, by simp, by simp⟩
          · split
            · rename_i hlt
              have hinp : inp = some 60 :: r := by rw [hi, hlt.1]
              split
              · have hpk := ppeek_le (wrapOn bits ml).toNat inp
                rw [← hinp]
                generalize (wrapOn bits ml).toNat = n at *
                generalize ppeek n inp = q at *
                obtain ⟨w, ok, r'⟩ := q
                cases ok with
                | false => exact ⟨hpk.1, hpk.2, by simp, by simp, by simp⟩
                | true =>
                  have e1 := nb_drop_le r' n
                  refine ⟨?_, ?_, fun _ => ⟨rfl, rfl⟩, by simp, by simp⟩
                  · simp only [] at hpk ⊢; rw [List.length_drop]; omega
                  · simp only [] at hpk ⊢; omega
              · refine ⟨?_, ?_, by simp, by simp, by simp⟩ <;> simp only [← hinp] <;> exact Nat.le_refl _
            · exact ⟨hlen.1, hlen.2, by simp, by simp, by simp⟩

/-- `run` on events -/
def prunB (bits : Nat) (go be : Bool) (max : Int) (inp : Events) : List Result :=
  let s1 := pscanB bits ⟨inp, 0, false⟩
  if s1.1.typ ≠ .MSGLEN then [⟨none, some (.notMsgLen s1.1)⟩]
  else if wrapOn bits s1.2.msglen > max then [⟨none, some (.tooLong s1.2.msglen max)⟩]
  else
    let s2 := pscanB bits s1.2
    if s2.1.typ ≠ .WS then [⟨none, some (.notWS s2.1)⟩]
    else
      let s3 := pscanB bits s2.2
      if s3.1.typ ≠ .SYSLOGMSG then
        if (s3.1.lit.length : Int) < wrapOn bits s3.2.msglen ∧ go = true then
          [⟨(pmsg be s3.1.lit).msg, some ((pmsg be s3.1.lit).err.getD (.notMsg s3.1 s3.2.msglen))⟩]
        else [⟨none, some (.notMsg s3.1 s3.2.msglen)⟩]
      else if go = false ∧ (pmsg be s3.1.lit).err ≠ none then [⟨none, (pmsg be s3.1.lit).err⟩]
      else if (pscanB bits s3.2).1.typ = .EOF then [pmsg be s3.1.lit]
      else if s3.2.inp.length < inp.length then pmsg be s3.1.lit :: prunB bits go be max s3.2.inp
      else []
termination_by inp.length

/-- invariant of the parser between two scans -/
structure PInvB (go be : Bool) (max : Int) (cap : Nat) (p : Parser) : Prop where
  hgo : p.bestEffort = go
  hmax : p.maxMessageLength = max
  ibe : p.internal.bestEffort = be
  ico : p.internal.compliantMsg = false
  step : p.stepback = false
  ok : p.s.r.Ok
  cap : p.s.r.cap = cap

theorem parser_scanB {bits : Nat} {go be : Bool} {max : Int} {cap : Nat} {p : Parser} (h : PInvB go be max cap p)
    (hc : wrapOn bits p.s.msglen ≤ cap ∨ p.s.abs.ready = false) :
    ∃ p', p.scanB bits = ((pscanB bits p.s.abs).1, p') ∧ p'.s.abs = (pscanB bits p.s.abs).2 ∧ p'.last = (pscanB bits p.s.abs).1 ∧
      PInvB go be max cap p' := by
  obtain ⟨h1, h2, h3⟩ := scanB_spec bits p.s h.ok (by rw [h.cap]; exact hc)
  refine ⟨{ p with s := (p.s.scanB bits).2, last := (p.s.scanB bits).1 }, ?_, ?_, ?_, ?_⟩
  · simp only [Parser.scanB, h.step, h1]; rfl
  · rw [h1]
  · rw [h1]
  · exact ⟨h.hgo, h.hmax, h.ibe, h.ico, h.step, h2, h3.trans h.cap⟩

theorem parser_parseMsgB {go be : Bool} {max : Int} {cap : Nat} {p : Parser} (h : PInvB go be max cap p) (lit : Bytes) :
    ∃ p', p.parseMsg lit = some (pmsg be lit, p') ∧ p'.s = p.s ∧ PInvB go be max cap p' := by
  obtain ⟨m', e, e1, e2⟩ := parse_eq p.internal lit
  refine ⟨{ p with internal := m' }, ?_, rfl, ⟨h.hgo, h.hmax, e1.trans h.ibe, e2.trans h.ico, h.step, h.ok, h.cap⟩⟩
  simp only [Parser.parseMsg, e, pmsg, parse1_eq, h.ibe, h.ico]

theorem runLoopB_spec {bits : Nat} {go be : Bool} {max : Int} {cap : Nat} (hcap : max ≤ cap) (fuel : Nat) (p : Parser) (inp : Events)
    (hf : nb inp < fuel)
    (hrel : ∃ p1, p.scanB bits = ((pscanB bits ⟨inp, 0, false⟩).1, p1) ∧ p1.s.abs = (pscanB bits ⟨inp, 0, false⟩).2 ∧ PInvB go be max cap p1) :
    ∃ p', runLoopB bits fuel p = some (prunB bits go be max inp, p') ∧ PInvB go be max cap p' := by
  induction fuel generalizing p inp with
  | zero => omega
  | succ fuel ih =>
    obtain ⟨p1, h1, h2, hi1⟩ := hrel
    have sp1 := pscanB_spec bits ⟨inp, 0, false⟩
    rw [prunB, runLoopB, h1]
    generalize pscanB bits ⟨inp, 0, false⟩ = s1 at *
    simp only []
    have hm1 : p1.s.msglen = s1.2.msglen := by rw [← h2]; rfl
    by_cases c1 : s1.1.typ ≠ .MSGLEN
    · rw [if_pos c1, if_pos c1]; exact ⟨p1, rfl, hi1⟩
    obtain ⟨n1, n2, n3⟩ := sp1.num (by simpa using c1)
    rw [if_neg c1, if_neg c1, hm1, hi1.hmax]
    by_cases c2 : wrapOn bits s1.2.msglen > max
    · rw [if_pos c2, if_pos c2]; exact ⟨p1, rfl, hi1⟩
    rw [if_neg c2, if_neg c2]
    obtain ⟨p2, g1, g2, -, hi2⟩ := parser_scanB (bits := bits) hi1 (Or.inr (by rw [h2]; exact n1))
    have sp2 := pscanB_spec bits s1.2
    rw [h2] at g1 g2
    rw [g1]
    generalize pscanB bits s1.2 = s2 at *
    simp only []
    have hm2 : p2.s.msglen = s2.2.msglen := by rw [← g2]; rfl
    by_cases c3 : s2.1.typ ≠ .WS
    · rw [if_pos c3, if_pos c3]; exact ⟨p2, rfl, hi2⟩
    rw [if_neg c3, if_neg c3]
    have hws : s2.2.msglen = s1.2.msglen := sp2.ws (by simpa using c3)
    obtain ⟨p3, k1, k2, -, hi3⟩ := parser_scanB (bits := bits) hi2 (by rw [hm2, hws]; exact Or.inl (by omega))
    have sp3 := pscanB_spec bits s2.2
    rw [g2] at k1 k2
    rw [k1]
    generalize pscanB bits s2.2 = s3 at *
    simp only []
    have hm3 : p3.s.msglen = s3.2.msglen := by rw [← k2]; rfl
    rw [hm3, hi3.hgo]
    obtain ⟨p4, q1, q2, hi4⟩ := parser_parseMsgB hi3 s3.1.lit
    rw [q1]
    simp only []
    by_cases c4 : s3.1.typ ≠ .SYSLOGMSG
    · rw [if_pos c4, if_pos c4]
      by_cases c5 : (s3.1.lit.length : Int) < wrapOn bits s3.2.msglen ∧ go = true
      · rw [if_pos c5, if_pos c5]
        refine ⟨p4, ?_, hi4⟩
        cases (pmsg be s3.1.lit).err <;> rfl
      · rw [if_neg c5, if_neg c5]; exact ⟨p3, rfl, hi3⟩
    rw [if_neg c4, if_neg c4, hi4.hgo]
    by_cases c6 : go = false ∧ (pmsg be s3.1.lit).err ≠ none
    · rw [if_pos c6, if_pos c6]
      refine ⟨p4, ?_, hi4⟩
      rw [if_neg (by rintro (h | h); · simp [c6.1] at h
                     · exact c6.2 h)]
      rfl
    rw [if_neg c6, if_neg c6]
    have hor : go = true ∨ (pmsg be s3.1.lit).err = none := by
      cases hb : go with
      | true => exact Or.inl rfl
      | false =>
        right
        rw [hb] at c6
        cases he : (pmsg be s3.1.lit).err with
        | none => rfl
        | some e => exact absurd ⟨rfl, by simp [he]⟩ c6
    rw [if_pos hor]
    obtain ⟨m3, m4⟩ := sp3.msg (by simpa using c4)
    have habs : p4.s.abs = s3.2 := by rw [q2, k2]
    obtain ⟨p5, r1, r2, r3, hi5⟩ := parser_scanB (bits := bits) hi4 (Or.inr (by rw [habs]; exact m4))
    rw [habs] at r1 r2 r3
    rw [r1]
    have hlt : s3.2.inp.length < inp.length := by
      have := sp2.len; have := sp3.len; simp only [] at *; omega
    simp only []
    by_cases c7 : (pscanB bits s3.2).1.typ = .EOF
    · rw [if_pos c7, if_pos c7]; exact ⟨p5, rfl, hi5⟩
    rw [if_neg c7, if_neg c7, if_pos hlt]
    have hs3 : s3.2 = ⟨s3.2.inp, 0, false⟩ := by
      rw [show s3.2 = ⟨s3.2.inp, s3.2.msglen, s3.2.ready⟩ from rfl, m3, m4]
    obtain ⟨p6, t1, hi6⟩ := ih p5.unscan s3.2.inp (by
        have := sp2.bytes; have := sp3.bytes; simp only [] at *; omega) ⟨{ p5.unscan with stepback := false }, by
          rw [← hs3]; simp [Parser.scanB, Parser.unscan, r3], by rw [← hs3]; exact r2,
          ⟨hi5.hgo, hi5.hmax, hi5.ibe, hi5.ico, rfl, hi5.ok, hi5.cap⟩⟩
    rw [t1]
    exact ⟨p6, rfl, hi6⟩

/-- a parser between two calls of `Parse` -/
structure IdleB (go be : Bool) (max : Int) (p : Parser) : Prop where
  hgo : p.bestEffort = go
  hmax : p.maxMessageLength = max
  ibe : p.internal.bestEffort = be
  ico : p.internal.compliantMsg = false
  step : p.stepback = false

theorem parseB_idle {bits : Nat} {go be : Bool} {max : Int} {p : Parser} (h : IdleB go be max p) (hfit : max ≤ 0 ∨ max ≤ wrapOn bits (max + 20))
    (sched : List Read) :
    ∃ p', p.parseB bits sched = some (prunB bits go be max (delivered sched), p') ∧ IdleB go be max p' := by
  have habs : (newScannerB bits sched p.maxMessageLength).abs = ⟨delivered sched, 0, false⟩ := by
    simp [newScannerB, newReader, Scanner.abs, Reader.abs, delivered]
  have hi : PInvB go be max (newScannerB bits sched p.maxMessageLength).r.cap { p with s := newScannerB bits sched p.maxMessageLength } := by
    refine ⟨h.hgo, h.hmax, h.ibe, h.ico, h.step, ⟨?_, by simp [newScannerB, newReader]⟩, rfl⟩
    simp only [newScannerB, newReader]; split <;> omega
  have hcap : max ≤ (newScannerB bits sched p.maxMessageLength).r.cap := by
    simp only [newScannerB, newReader, h.hmax]
    generalize wrapOn bits (max + 20) = z at *
    split <;> omega
  obtain ⟨p1, h1, h2, -, hi1⟩ := parser_scanB (bits := bits) hi (Or.inr rfl)
  rw [habs] at h1 h2
  obtain ⟨p', h3, hi'⟩ := runLoopB_spec (bits := bits) hcap ((newScannerB bits sched p.maxMessageLength).r.remaining + 1)
    { p with s := newScannerB bits sched p.maxMessageLength } (delivered sched)
    (by
      have : nb (delivered sched) = (newScannerB bits sched p.maxMessageLength).r.remaining := by
        rw [← nb_abs]; exact congrArg nb (congrArg PS.inp habs).symm
      omega) ⟨p1, h1, h2, hi1⟩
  exact ⟨p', h3, ⟨hi'.hgo, hi'.hmax, hi'.ibe, hi'.ico, hi'.step⟩⟩

end Verif.Octet
