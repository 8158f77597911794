import Verif.Octet.Run

/-!
# Readers that panic, listeners that panic

The functions of `Model.lean` with a reader whose `Read` panics (or never returns) when it is called after the calls of its list, if
`panics`, and returns `io.EOF` for ever otherwise, and with a listener that may panic. `none`: the reader has panicked.
-/

namespace Verif.Octet

/-- `rd.Read(p)`: as `readCall`, but the call after those of the list panics instead of returning `io.EOF`, if `panics` -/
def readCallO (panics : Bool) (space : Nat) : List Read → Option (Bytes × Bool × List Read)
  | [] => if panics then none else some ([], true, [])
  | r :: rs => some (readCall space (r :: rs))

/-- the loop of `bufio.Reader.fill`, as `fillLoop` -/
def fillLoopO (panics : Bool) : Nat → Reader → Option Reader
  | 0, rd => some { rd with err := true }
  | i + 1, rd =>
    match readCallO panics (rd.cap - rd.q.length) rd.sched with
    | none => none
    | some (d, e, s) =>
      if e then some { rd with q := rd.q ++ d, err := true, sched := s }
      else if d ≠ [] then some { rd with q := rd.q ++ d, sched := s }
      else fillLoopO panics i { rd with sched := s }

/-- `bufio.Reader.fill` -/
def Reader.fillO (panics : Bool) (rd : Reader) : Option Reader := fillLoopO panics 100 { rd with r := 0 }

/-- `bufio.Reader.ReadByte`, as `Reader.readByte` -/
def Reader.readByteO (panics : Bool) (rd : Reader) : Option (Option UInt8 × Reader) :=
  match (if rd.q = [] ∧ rd.err = false then rd.fillO panics else some rd) with
  | none => none
  | some rd1 =>
    match rd1.q with
    | [] => some (none, { rd1 with err := false })
    | b :: q => some (some b, { rd1 with q := q, r := rd1.r + 1, last := some b })

/-- the loop of `bufio.Reader.Peek`, as `peekFill` -/
def peekFillO (panics : Bool) (n : Nat) : Nat → Reader → Option Reader
  | 0, rd => some rd
  | fuel + 1, rd =>
    if rd.q.length < n ∧ rd.q.length < rd.cap ∧ rd.err = false then
      match rd.fillO panics with
      | none => none
      | some rd1 => peekFillO panics n fuel rd1
    else some rd

/-- `bufio.Reader.Peek(n)`, as `Reader.peek` -/
def Reader.peekO (panics : Bool) (rd : Reader) (n : Int) : Option (Bytes × Bool × Reader) :=
  if n < 0 then some ([], false, rd)
  else
    match peekFillO panics n.toNat (n.toNat + 1) { rd with last := none } with
    | none => none
    | some rd1 =>
      if rd1.cap < n.toNat then some (rd1.q, false, rd1)
      else if rd1.q.length < n.toNat then some (rd1.q, false, { rd1 with err := false })
      else some (rd1.q.take n.toNat, true, rd1)

/-- `Scanner.read` (octetcounting/scanner.go:45-51) -/
def Scanner.readO (panics : Bool) (s : Scanner) : Option (UInt8 × Scanner) :=
  match s.r.readByteO panics with
  | none => none
  | some (none, r) => some (0, { s with r := r })
  | some (some b, r) => some (b, { s with r := r })

/-- the loop of `scanMsgLen` (octetcounting/scanner.go:102-111), as `scanDigits` -/
def scanDigitsO (panics : Bool) : Nat → Scanner → Bytes → Option (Bytes × Scanner)
  | 0, s, buf => some (buf, s)
  | fuel + 1, s, buf =>
    match s.readO panics with
    | none => none
    | some (b, s1) =>
      if b = 0 then some (buf, s1)
      else if !isDigit b then some (buf, s1.unread)
      else scanDigitsO panics fuel s1 (buf ++ [b])

/-- `Scanner.scanMsgLen` (octetcounting/scanner.go:95-120) -/
def Scanner.scanMsgLenO (panics : Bool) (s : Scanner) : Option (Token × Scanner) :=
  match s.readO panics with
  | none => none
  | some (b, s1) =>
    match scanDigitsO panics (s1.r.remaining + 1) s1 [b] with
    | none => none
    | some (buf, s2) => some (⟨.MSGLEN, buf⟩, { s2 with msglen := parseUint buf 0 })

/-- `Scanner.scanSyslogMsg` (octetcounting/scanner.go:122-144) -/
def Scanner.scanSyslogMsgO (panics : Bool) (s : Scanner) : Option (Token × Scanner) :=
  match s.r.peekO panics (toInt s.msglen) with
  | none => none
  | some (b, false, r) => some (⟨.EOF, b⟩, { s with r := r })
  | some (b, true, r) => some (⟨.SYSLOGMSG, b⟩, { s with r := r.discard (toInt s.msglen).toNat, ready := false, msglen := 0 })

/-- `Scanner.Scan` (octetcounting/scanner.go:59-93) -/
def Scanner.scanO (panics : Bool) (s : Scanner) : Option (Token × Scanner) :=
  match s.readO panics with
  | none => none
  | some (b, s1) =>
    if isNonZeroDigit b then { s1.unread with ready := false }.scanMsgLenO panics
    else if b = 0 then some (⟨.EOF, []⟩, { s1 with ready := false })
    else if b = 32 then some (⟨.WS, [32]⟩, { s1 with ready := true })
    else if b = 60 ∧ s1.msglen > 0 ∧ s1.ready = true then s1.unread.scanSyslogMsgO panics
    else some (⟨.ILLEGAL, [b]⟩, s1)

/-- `parser.scan` (octetcounting/parser.go:154-168) -/
def Parser.scanO (panics : Bool) (p : Parser) : Option (Token × Parser) :=
  if p.stepback then some (p.last, { p with stepback := false })
  else
    match p.s.scanO panics with
    | none => none
    | some (tok, s) => some (tok, { p with s := s, last := tok })

/-- How `run` ends: the message parser panics; the reader panics (what is left of the parser, except the scanner: nothing is said about
what is left of that); the listener panics (what is left of the parser); it returns. -/
inductive Ran where
  | crash
  | readerPanics (got : List Result) (left : Parser)
  | listenerPanics (got : List Result) (left : Parser)
  | ok (got : List Result) (p : Parser)

/-- a listener: does it panic when it has got these results in this call of `Parse`, the last one just now? -/
abbrev Stop := List Result → Bool

/-- `p.emit(r)`: the listener gets the result, and panics or not; then `k` -/
def emitP (stop : Stop) (r : Result) (hist : List Result) (p : Parser) (k : List Result → Ran) : Ran :=
  if stop (hist ++ [r]) then .listenerPanics (hist ++ [r]) p else k (hist ++ [r])

/-- `run` (octetcounting/parser.go:77-141), as `runLoop`; `hist` is what the listener has got so far. -/
def runO (panics : Bool) (stop : Stop) : Nat → List Result → Parser → Ran
  | 0, _, _ => .crash
  | fuel + 1, hist, p =>
    match p.scanO panics with
    | none => .readerPanics hist p
    | some (tok, p) =>
    if tok.typ ≠ .MSGLEN then emitP stop ⟨none, some (.notMsgLen tok)⟩ hist p fun h => .ok h p
    else if toInt p.s.msglen > p.maxMessageLength then
      emitP stop ⟨none, some (.tooLong p.s.msglen p.maxMessageLength)⟩ hist p fun h => .ok h p
    else
    match p.scanO panics with
    | none => .readerPanics hist p
    | some (tok, p) =>
    if tok.typ ≠ .WS then emitP stop ⟨none, some (.notWS tok)⟩ hist p fun h => .ok h p
    else
    match p.scanO panics with
    | none => .readerPanics hist p
    | some (tok, p) =>
    if tok.typ ≠ .SYSLOGMSG then
      let e := Error.notMsg tok p.s.msglen
      if (tok.lit.length : Int) < toInt p.s.msglen ∧ p.bestEffort = true then
        match p.parseMsg tok.lit with
        | none => .crash
        | some (result, p) =>
          emitP stop ⟨result.msg, match result.err with | none => some e | some e' => some e'⟩ hist p fun h => .ok h p
      else emitP stop ⟨none, some e⟩ hist p fun h => .ok h p
    else
    match p.parseMsg tok.lit with
    | none => .crash
    | some (result, p) =>
      let cont : List Result → Ran := fun hist =>
        if p.bestEffort = false ∧ result.err ≠ none then emitP stop ⟨none, result.err⟩ hist p fun h => .ok h p
        else
        match p.scanO panics with
        | none => .readerPanics hist p
        | some (tok, p) =>
        if tok.typ = .EOF then .ok hist p
        else runO panics stop fuel hist p.unscan
      if p.bestEffort = true ∨ result.err = none then emitP stop result hist p cont else cont hist

/-- `parser.Parse` (octetcounting/parser.go:72-75) on a reader that panics when it is called after the calls of `sched`, or
returns `io.EOF` then -/
def Parser.parseO (panics : Bool) (stop : Stop) (p : Parser) (sched : List Read) : Ran :=
  let s := newScanner sched p.maxMessageLength
  runO panics stop (s.r.remaining + 1) [] { p with s := s }

/-- `parser.Parse` (octetcounting/parser.go:72-75) on a `*bufio.Reader` whose own reader panics or not -/
def Parser.parseOnO (panics : Bool) (stop : Stop) (p : Parser) (rd : Reader) : Ran :=
  let s := newScannerOn rd p.maxMessageLength
  runO panics stop (s.r.remaining + 1) [] { p with s := s }

/-! ## What comes later does not matter -/

variable {panics : Bool}

/-- the reader with more calls after those of its list -/
def Reader.thn (rd : Reader) (more : List Read) : Reader := { rd with sched := rd.sched ++ more }

/-- the scanner on such a reader -/
def Scanner.thn (s : Scanner) (more : List Read) : Scanner := { s with r := s.r.thn more }

/-- the parser on such a reader -/
def Parser.thn (p : Parser) (more : List Read) : Parser := { p with s := p.s.thn more }

theorem readCallO_thn {space : Nat} {sched : List Read} {d : Bytes} {e : Bool} {s : List Read} (h : readCallO panics space sched = some (d, e, s))
    {more : List Read} (hm : panics = true ∨ more = []) : readCall space (sched ++ more) = (d, e, s ++ more) := by
  cases sched with
  | nil =>
    rcases hm with rfl | rfl
    · simp [readCallO] at h
    · cases panics with
      | true => simp [readCallO] at h
      | false =>
        simp only [readCallO, Bool.false_eq_true, if_false, Option.some.injEq] at h
        cases h; rfl
  | cons r rs =>
    simp only [readCallO, readCall, Option.some.injEq] at h
    simp only [List.cons_append, readCall]
    split
    · rename_i hl; rw [if_pos hl] at h; cases h; rfl
    · rename_i hl; rw [if_neg hl] at h; cases h; rfl

theorem fillLoopO_thn (i : Nat) {rd rd' : Reader} (h : fillLoopO panics i rd = some rd') {more : List Read} (hm : panics = true ∨ more = []) :
    fillLoop i (rd.thn more) = rd'.thn more := by
  induction i generalizing rd with
  | zero => cases h; rfl
  | succ i ih =>
    obtain ⟨q, r0, cap, err, last, sched⟩ := rd
    simp only [fillLoopO] at h
    simp only [Reader.thn, fillLoop]
    cases hc : readCallO panics (cap - q.length) sched with
    | none => rw [hc] at h; simp at h
    | some y =>
      obtain ⟨d, e, s⟩ := y
      rw [hc] at h
      simp only [readCallO_thn hc hm]
      simp only [] at h ⊢
      split
      · rename_i he; rw [if_pos he] at h; cases h; rfl
      · rename_i he
        rw [if_neg he] at h
        split
        · rename_i hd; rw [if_pos hd] at h; cases h; rfl
        · rename_i hd; rw [if_neg hd] at h; exact ih h

theorem fillO_thn {rd rd' : Reader} (h : rd.fillO panics = some rd') {more : List Read} (hm : panics = true ∨ more = []) : (rd.thn more).fill = rd'.thn more :=
  fillLoopO_thn 100 h hm

theorem readByteO_thn {rd rd' : Reader} {b : Option UInt8} (h : rd.readByteO panics = some (b, rd')) {more : List Read} (hm : panics = true ∨ more = []) :
    (rd.thn more).readByte = (b, rd'.thn more) := by
  simp only [Reader.readByteO] at h
  have hq : (rd.thn more).q = rd.q := rfl
  have he : (rd.thn more).err = rd.err := rfl
  simp only [Reader.readByte, hq, he]
  have key : ∀ rd1, (if rd.q = [] ∧ rd.err = false then rd.fillO panics else some rd) = some rd1 →
      (if rd.q = [] ∧ rd.err = false then (rd.thn more).fill else rd.thn more) = rd1.thn more := by
    intro rd1 h1
    split
    · rename_i hc; rw [if_pos hc] at h1; exact fillO_thn h1 hm
    · rename_i hc; rw [if_neg hc] at h1; cases h1; rfl
  cases h1 : (if rd.q = [] ∧ rd.err = false then rd.fillO panics else some rd) with
  | none => rw [h1] at h; simp at h
  | some rd1 =>
    rw [h1] at h
    rw [key rd1 h1]
    have hq1 : (rd1.thn more).q = rd1.q := rfl
    rw [hq1]
    cases hb : rd1.q with
    | nil => simp only [hb] at h ⊢; cases h; rfl
    | cons c q => simp only [hb] at h ⊢; cases h; rfl

theorem peekFillO_thn (n fuel : Nat) {rd rd' : Reader} (h : peekFillO panics n fuel rd = some rd') {more : List Read} (hm : panics = true ∨ more = []) :
    peekFill n fuel (rd.thn more) = rd'.thn more := by
  induction fuel generalizing rd with
  | zero => cases h; rfl
  | succ fuel ih =>
    simp only [peekFillO] at h
    rw [peekFill]
    have hq : (rd.thn more).q = rd.q := rfl
    have he : (rd.thn more).err = rd.err := rfl
    have hc : (rd.thn more).cap = rd.cap := rfl
    rw [hq, he, hc]
    split
    · rename_i hh
      rw [if_pos hh] at h
      cases hf : rd.fillO panics with
      | none => rw [hf] at h; simp at h
      | some rd1 => rw [hf] at h; rw [fillO_thn hf hm]; exact ih h
    · rename_i hh
      rw [if_neg hh] at h
      cases h; rfl

theorem peekO_thn {rd rd' : Reader} {n : Int} {b : Bytes} {ok : Bool} (h : rd.peekO panics n = some (b, ok, rd')) {more : List Read} (hm : panics = true ∨ more = []) :
    (rd.thn more).peek n = (b, ok, rd'.thn more) := by
  simp only [Reader.peekO] at h
  simp only [Reader.peek]
  split
  · rename_i hn; rw [if_pos hn] at h; cases h; rfl
  · rename_i hn
    rw [if_neg hn] at h
    cases hp : peekFillO panics n.toNat (n.toNat + 1) { rd with last := none } with
    | none => rw [hp] at h; simp at h
    | some rd1 =>
      rw [hp] at h
      have h1 := peekFillO_thn n.toNat _ hp hm
      have h2 : ({ rd with last := none } : Reader).thn more = { rd.thn more with last := none } := rfl
      rw [h2] at h1
      rw [h1]
      simp only [] at h
      have hq : (rd1.thn more).q = rd1.q := rfl
      have hc : (rd1.thn more).cap = rd1.cap := rfl
      rw [hq, hc]
      split
      · rename_i c1; rw [if_pos c1] at h; cases h; rfl
      · rename_i c1
        rw [if_neg c1] at h
        split
        · rename_i c2; rw [if_pos c2] at h; cases h; rfl
        · rename_i c2; rw [if_neg c2] at h; cases h; rfl

theorem unread_thn (s : Scanner) (more : List Read) : (s.thn more).unread = s.unread.thn more := by
  obtain ⟨⟨q, r0, cap, err, last, sched⟩, n, y⟩ := s
  cases last with
  | none => rfl
  | some b =>
    have key : ∀ x, Reader.unreadByte ⟨q, r0, cap, err, some b, x⟩ =
        if r0 = 0 ∧ q ≠ [] then ⟨q, r0, cap, err, some b, x⟩ else ⟨b :: q, r0 - 1, cap, err, none, x⟩ := fun _ => rfl
    simp only [Scanner.unread, Scanner.thn, Reader.thn, key]
    by_cases h : r0 = 0 ∧ q ≠ []
    · rw [if_pos h, if_pos h]
    · rw [if_neg h, if_neg h]

theorem readO_thn {s s' : Scanner} {b : UInt8} (h : s.readO panics = some (b, s')) {more : List Read} (hm : panics = true ∨ more = []) : (s.thn more).read = (b, s'.thn more) := by
  simp only [Scanner.readO] at h
  have hr : (s.thn more).r = s.r.thn more := rfl
  simp only [Scanner.read, hr]
  cases hb : s.r.readByteO panics with
  | none => rw [hb] at h; simp at h
  | some y =>
    obtain ⟨c, r⟩ := y
    rw [hb] at h
    rw [readByteO_thn hb hm]
    cases c with
    | none => simp only [] at h ⊢; cases h; rfl
    | some c => simp only [] at h ⊢; cases h; rfl

theorem thn_nil (s : Scanner) : s.thn [] = s := by simp [Scanner.thn, Reader.thn]

theorem fillLoop_remaining (i : Nat) (rd : Reader) : (fillLoop i rd).remaining = rd.remaining := by
  induction i generalizing rd with
  | zero => rfl
  | succ i ih =>
    have hs : ∀ space sched, ((readCall space sched).1.length) + ((readCall space sched).2.2.map fun x => x.data.length).sum =
        (sched.map fun x => x.data.length).sum := by
      intro space sched
      cases sched with
      | nil => rfl
      | cons r rs =>
        simp only [readCall]
        split
        · simp
        · simp; omega
    have := hs (rd.cap - rd.q.length) rd.sched
    simp only [fillLoop]
    generalize readCall (rd.cap - rd.q.length) rd.sched = y at *
    obtain ⟨d, e, s⟩ := y
    simp only [] at this ⊢
    split
    · simp [Reader.remaining]; omega
    · split
      · simp [Reader.remaining]; omega
      · rename_i hd
        rw [ih]
        have hd : d = [] := by simpa using hd
        simp [Reader.remaining, ← this, hd]

theorem read_remaining {s s' : Scanner} {b : UInt8} (h : s.read = (b, s')) (hb : b ≠ 0) : s'.r.remaining < s.r.remaining := by
  simp only [Scanner.read, Reader.readByte] at h
  have h1 : (if s.r.q = [] ∧ s.r.err = false then s.r.fill else s.r).remaining = s.r.remaining := by
    split
    · exact fillLoop_remaining 100 _
    · rfl
  generalize (if s.r.q = [] ∧ s.r.err = false then s.r.fill else s.r) = rd1 at *
  rw [← h1]
  cases hq : rd1.q with
  | nil => rw [hq] at h; simp only [Prod.mk.injEq] at h; exact absurd h.1.symm hb
  | cons c q =>
    rw [hq] at h
    simp only [Prod.mk.injEq] at h
    rw [← h.2]
    simp [Reader.remaining, hq]

theorem remaining_thn (s : Scanner) (more : List Read) : s.r.remaining ≤ (s.thn more).r.remaining := by
  simp [Reader.remaining, Scanner.thn, Reader.thn]

theorem scanDigitsO_thn (fuel fuel' : Nat) {s s' : Scanner} {buf out : Bytes} (hf : s.r.remaining < fuel) (hff : fuel ≤ fuel')
    (h : scanDigitsO panics fuel s buf = some (out, s')) {more : List Read} (hm : panics = true ∨ more = []) : scanDigits fuel' (s.thn more) buf = (out, s'.thn more) := by
  induction fuel generalizing s buf fuel' with
  | zero => omega
  | succ fuel ih =>
    obtain ⟨fuel', rfl⟩ : ∃ k, fuel' = k + 1 := ⟨fuel' - 1, by omega⟩
    simp only [scanDigitsO] at h
    simp only [scanDigits]
    cases hr : s.readO panics with
    | none => rw [hr] at h; simp at h
    | some y =>
      obtain ⟨b, s1⟩ := y
      rw [hr] at h
      rw [readO_thn hr hm]
      simp only [] at h ⊢
      split
      · rename_i hb; rw [if_pos hb] at h; cases h; rfl
      · rename_i hb
        rw [if_neg hb] at h
        split
        · rename_i hd; rw [if_pos hd] at h; cases h; rw [unread_thn]
        · rename_i hd
          rw [if_neg hd] at h
          refine ih fuel' ?_ (by omega) h
          have h1 := readO_thn hr (more := []) (Or.inr rfl)
          rw [thn_nil, thn_nil] at h1
          have := read_remaining h1 hb
          omega

theorem scanMsgLenO_thn {s s' : Scanner} {t : Token} (h : s.scanMsgLenO panics = some (t, s')) {more : List Read} (hm : panics = true ∨ more = []) :
    (s.thn more).scanMsgLen = (t, s'.thn more) := by
  simp only [Scanner.scanMsgLenO] at h
  simp only [Scanner.scanMsgLen]
  cases hr : s.readO panics with
  | none => rw [hr] at h; simp at h
  | some y =>
    obtain ⟨b, s1⟩ := y
    rw [hr] at h
    rw [readO_thn hr hm]
    simp only [] at h ⊢
    cases hd : scanDigitsO panics (s1.r.remaining + 1) s1 [b] with
    | none => rw [hd] at h; simp at h
    | some z =>
      obtain ⟨buf, s2⟩ := z
      rw [hd] at h
      rw [scanDigitsO_thn _ ((s1.thn more).r.remaining + 1) (by omega) (by have := remaining_thn s1 more; omega) hd hm]
      simp only [] at h ⊢
      cases h; rfl

theorem scanSyslogMsgO_thn {s s' : Scanner} {t : Token} (h : s.scanSyslogMsgO panics = some (t, s')) {more : List Read} (hm : panics = true ∨ more = []) :
    (s.thn more).scanSyslogMsg = (t, s'.thn more) := by
  simp only [Scanner.scanSyslogMsgO] at h
  have hr : (s.thn more).r = s.r.thn more := rfl
  have hl : (s.thn more).msglen = s.msglen := rfl
  simp only [Scanner.scanSyslogMsg, hr, hl]
  cases hp : s.r.peekO panics (toInt s.msglen) with
  | none => rw [hp] at h; simp at h
  | some y =>
    obtain ⟨b, ok, r⟩ := y
    rw [hp] at h
    rw [peekO_thn hp hm]
    cases ok <;> (simp only [] at h ⊢; cases h; rfl)

theorem scannerScanO_thn {s s' : Scanner} {t : Token} (h : s.scanO panics = some (t, s')) {more : List Read} (hm : panics = true ∨ more = []) :
    (s.thn more).scan = (t, s'.thn more) := by
  simp only [Scanner.scanO] at h
  simp only [Scanner.scan]
  cases hr : s.readO panics with
  | none => rw [hr] at h; simp at h
  | some y =>
    obtain ⟨b, s1⟩ := y
    rw [hr] at h
    rw [readO_thn hr hm]
    simp only [] at h ⊢
    split
    · rename_i c; rw [if_pos c] at h
      rw [unread_thn]
      exact scanMsgLenO_thn h hm
    · rename_i c; rw [if_neg c] at h
      split
      · rename_i c; rw [if_pos c] at h; cases h; rfl
      · rename_i c; rw [if_neg c] at h
        split
        · rename_i c; rw [if_pos c] at h; cases h; rfl
        · rename_i c; rw [if_neg c] at h
          have hl : (s1.thn more).msglen = s1.msglen := rfl
          have hy : (s1.thn more).ready = s1.ready := rfl
          rw [hl, hy]
          split
          · rename_i c; rw [if_pos c] at h; rw [unread_thn]; exact scanSyslogMsgO_thn h hm
          · rename_i c; rw [if_neg c] at h; cases h; rfl

theorem scanO_thn {p p' : Parser} {t : Token} (h : p.scanO panics = some (t, p')) {more : List Read} (hm : panics = true ∨ more = []) :
    (p.thn more).scan = (t, p'.thn more) := by
  simp only [Parser.scanO] at h
  have hs : (p.thn more).stepback = p.stepback := rfl
  simp only [Parser.scan, hs]
  split
  · rename_i c; rw [if_pos c] at h; cases h; rfl
  · rename_i c; rw [if_neg c] at h
    cases hr : p.s.scanO panics with
    | none => rw [hr] at h; simp at h
    | some y =>
      obtain ⟨tok, s⟩ := y
      rw [hr] at h
      have hps : (p.thn more).s = p.s.thn more := rfl
      rw [hps, scannerScanO_thn hr hm]
      simp only [] at h ⊢
      cases h; rfl

end Verif.Octet
