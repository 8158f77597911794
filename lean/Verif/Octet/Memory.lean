import Verif.Octet.Model

/-!
# `octetcounting` with the memory of the buffer

`Verif/Octet/Model.lean` gives the tokens of the scanner values of their own. In Go the literal of a message token is a slice of the
buffer of the `bufio.Reader` (scanner.go:125, 141-144), and the following reads move and overwrite that buffer. Here the buffer is an
array of bytes that stays the same array for the life of the reader, a literal is either bytes of its own or a pair of offsets into the
buffer, and whoever looks at a literal sees what is in the buffer *then*. The slice that `fill` hands to the caller's `io.Reader` is a
part of the same array; by the contract of `io.Reader` a `Read` may use all of it as scratch space, also beyond the bytes it reports.
-/

namespace Verif.Octet
open Verif.Rfc5424 (SyslogMessage)

/-! ## `io.Reader` and `bufio.Reader` -/

/-- What one `Read` call does: the bytes it delivers, whether it returns an error, and what it leaves behind them in the slice it was
given (as far as there is room) -/
structure MRead where
  data : Bytes
  err : Bool
  scratch : Bytes := []
  deriving DecidableEq, Repr

/-- `rd.Read(p)` with `len(p) = space`: bytes, error, scratch, the following behaviour -/
def mreadCall (space : Nat) : List MRead → Bytes × Bool × Bytes × List MRead
  | [] => ([], true, [], [])
  | r :: rs =>
    if r.data.length ≤ space then (r.data, r.err, r.scratch, rs)
    else (r.data.take space, false, [], ⟨r.data.drop space, r.err, r.scratch⟩ :: rs)

/-- `copy(buf[i:], d)` -/
def copyAt (buf : Bytes) (i : Nat) (d : Bytes) : Bytes := buf.take i ++ d.take (buf.length - i) ++ buf.drop (i + d.length)

/-- `buf[i:i+n]` -/
def window (buf : Bytes) (i n : Nat) : Bytes := (buf.drop i).take n

/-- `bufio.Reader`: the array `buf` (`len(buf)` never changes), the indices `r` and `w`, the pending error, `lastByte` -/
structure MReader where
  buf : Bytes
  r : Nat := 0
  w : Nat := 0
  err : Bool := false
  last : Option UInt8 := none
  sched : List MRead
  deriving DecidableEq, Repr

/-- The loop of `bufio.Reader.fill`. `Read` writes its bytes, and what it likes behind them, into `buf[w:]`. -/
def mfillLoop : Nat → MReader → MReader
  | 0, rd => { rd with err := true }
  | i + 1, rd =>
    match mreadCall (rd.buf.length - rd.w) rd.sched with
    | (d, e, x, s) =>
      let buf := copyAt (copyAt rd.buf rd.w d) (rd.w + d.length) x
      if e then { rd with buf := buf, w := rd.w + d.length, err := true, sched := s }
      else if d ≠ [] then { rd with buf := buf, w := rd.w + d.length, sched := s }
      else mfillLoop i { rd with buf := buf, sched := s }

/-- `bufio.Reader.fill`: `if b.r > 0 { copy(b.buf, b.buf[b.r:b.w]); b.w -= b.r; b.r = 0 }`, then the reads -/
def MReader.fill (rd : MReader) : MReader :=
  mfillLoop 100 (if 0 < rd.r then { rd with buf := copyAt rd.buf 0 (window rd.buf rd.r (rd.w - rd.r)), w := rd.w - rd.r, r := 0 } else rd)

/-- `bufio.Reader.ReadByte`: `none` is an error. The loop runs `fill` at most once: afterwards there is a byte or an error. -/
def MReader.readByte (rd : MReader) : Option UInt8 × MReader :=
  let rd1 := if rd.r = rd.w ∧ rd.err = false then rd.fill else rd
  if rd1.r = rd1.w then (none, { rd1 with err := false })
  else (some (rd1.buf.getD rd1.r 0), { rd1 with r := rd1.r + 1, last := some (rd1.buf.getD rd1.r 0) })

/-- `bufio.Reader.UnreadByte`; it writes the byte into the buffer -/
def MReader.unreadByte (rd : MReader) : MReader :=
  match rd.last with
  | none => rd
  | some b =>
    if rd.r = 0 ∧ 0 < rd.w then rd
    else if 0 < rd.r then { rd with r := rd.r - 1, buf := copyAt rd.buf (rd.r - 1) [b], last := none }
    else { rd with w := 1, buf := copyAt rd.buf 0 [b], last := none }

/-- The loop of `bufio.Reader.Peek` -/
def mpeekFill (n : Nat) : Nat → MReader → MReader
  | 0, rd => rd
  | fuel + 1, rd =>
    if rd.w - rd.r < n ∧ rd.w - rd.r < rd.buf.length ∧ rd.err = false then mpeekFill n fuel rd.fill else rd

/-- A literal: bytes of its own, or `buf[off:off+len]` -/
inductive Lit where
  | own (b : Bytes)
  | view (off len : Nat)
  deriving DecidableEq, Repr

/-- what a literal shows when it is looked at -/
def Lit.bytes (buf : Bytes) : Lit → Bytes
  | .own b => b
  | .view off len => window buf off len

/-- `bufio.Reader.Peek(n)`: a slice of the buffer, whether the error is nil -/
def MReader.peek (rd : MReader) (n : Int) : Lit × Bool × MReader :=
  if n < 0 then (.own [], false, rd)
  else
    let rd1 := mpeekFill n.toNat (n.toNat + 1) { rd with last := none }
    if rd1.buf.length < n.toNat then (.view rd1.r (rd1.w - rd1.r), false, rd1)
    else if rd1.w - rd1.r < n.toNat then (.view rd1.r (rd1.w - rd1.r), false, { rd1 with err := false })
    else (.view rd1.r n.toNat, true, rd1)

/-- The loop of `bufio.Reader.Discard`: it fills the buffer, and so moves it, when there is nothing in it; `fuel` bounds the rounds. -/
def mdiscardLoop : Nat → Nat → MReader → MReader
  | 0, _, rd => rd
  | fuel + 1, remain, rd =>
    let rd1 := if rd.w - rd.r = 0 then rd.fill else rd
    let skip := min (rd1.w - rd1.r) remain
    let rd2 := { rd1 with r := rd1.r + skip }
    if remain - skip = 0 then rd2
    else if rd2.err = true then { rd2 with err := false }
    else mdiscardLoop fuel (remain - skip) rd2

/-- `bufio.Reader.Discard(n)`, `0 ≤ n` -/
def MReader.discard (rd : MReader) (n : Nat) : MReader :=
  if n = 0 then rd else mdiscardLoop (n + 1) n { rd with last := none }

/-- bytes that can still be read -/
def MReader.remaining (rd : MReader) : Nat := (rd.w - rd.r) + (rd.sched.map fun x => x.data.length).sum

/-- `bufio.NewReaderSize(r, size)`: a new array of zeros -/
def mnewReader (size : Int) (sched : List MRead) : MReader := { buf := List.replicate (if size < 16 then 16 else size.toNat) 0, sched := sched }

/-! ## `tokens.go`, `scanner.go` -/

/-- `Token` (tokens.go:8-11) -/
structure MToken where
  typ : TokenType
  lit : Lit := .own []
  deriving DecidableEq, Repr

/-- the token as it looks now -/
def MToken.now (buf : Bytes) (t : MToken) : Token := ⟨t.typ, t.lit.bytes buf⟩

/-- `Scanner` (scanner.go:30-34) -/
structure MScanner where
  r : MReader
  msglen : Nat := 0
  ready : Bool := false
  deriving DecidableEq, Repr

/-- `NewScanner` (scanner.go:37-41) -/
def mnewScanner (sched : List MRead) (maxLength : Int) : MScanner := { r := mnewReader (wrapInt (maxLength + 20)) sched }

/-- `Scanner.read` (scanner.go:45-51) -/
def MScanner.read (s : MScanner) : UInt8 × MScanner :=
  match s.r.readByte with
  | (none, r) => (0, { s with r := r })
  | (some b, r) => (b, { s with r := r })

/-- `Scanner.unread` (scanner.go:54-56) -/
def MScanner.unread (s : MScanner) : MScanner := { s with r := s.r.unreadByte }

/-- The loop of `scanMsgLen` (scanner.go:102-111); the bytes go to a `bytes.Buffer` of the call. -/
def mscanDigits : Nat → MScanner → Bytes → Bytes × MScanner
  | 0, s, buf => (buf, s)
  | fuel + 1, s, buf =>
    match s.read with
    | (b, s1) =>
      if b = 0 then (buf, s1)
      else if !isDigit b then (buf, s1.unread)
      else mscanDigits fuel s1 (buf ++ [b])

/-- `Scanner.scanMsgLen` (scanner.go:95-120) -/
def MScanner.scanMsgLen (s : MScanner) : MToken × MScanner :=
  match s.read with
  | (b, s1) =>
    match mscanDigits (s1.r.remaining + 1) s1 [b] with
    | (buf, s2) => (⟨.MSGLEN, .own buf⟩, { s2 with msglen := parseUint buf 0 })

/-- `Scanner.scanSyslogMsg` (scanner.go:122-144): the literal is the slice `Peek` returned, also after `Discard`. -/
def MScanner.scanSyslogMsg (s : MScanner) : MToken × MScanner :=
  match s.r.peek (toInt s.msglen) with
  | (b, false, r) => (⟨.EOF, b⟩, { s with r := r })
  | (b, true, r) => (⟨.SYSLOGMSG, b⟩, { s with r := r.discard (toInt s.msglen).toNat, ready := false, msglen := 0 })

/-- `Scanner.Scan` (scanner.go:59-93) -/
def MScanner.scan (s : MScanner) : MToken × MScanner :=
  match s.read with
  | (b, s1) =>
    if isNonZeroDigit b then { s1.unread with ready := false }.scanMsgLen
    else if b = 0 then (⟨.EOF, .own []⟩, { s1 with ready := false })
    else if b = 32 then (⟨.WS, .own [32]⟩, { s1 with ready := true })
    else if b = 60 ∧ s1.msglen > 0 ∧ s1.ready = true then s1.unread.scanSyslogMsg
    else (⟨.ILLEGAL, .own [b]⟩, s1)

/-! ## `parser.go` -/

/-- `parser` (parser.go:14-23). The message parser keeps the slice it was given last (rfc5424/machine.go:114), which is a slice of the
buffer too: `held`. Simplification: after a new `Parse` the slice still belongs to the array of the call before; here it is looked up in the
new one. -/
structure MParser where
  maxMessageLength : Int := 8192
  bestEffort : Bool := false
  s : MScanner := { r := { buf := List.replicate 16 0, sched := [] } }
  internal : Rfc5424.M := {}
  held : Lit := .own []
  last : MToken := ⟨.ILLEGAL, .own []⟩
  stepback : Bool := false

/-- `NewParser` (parser.go:26-44) -/
def mnewParser (opts : List Opt) : MParser :=
  let p := newParser opts
  { maxMessageLength := p.maxMessageLength, bestEffort := p.bestEffort, internal := p.internal }

/-- `parser.scan` (parser.go:154-168) -/
def MParser.scan (p : MParser) : MToken × MParser :=
  if p.stepback then (p.last, { p with stepback := false })
  else
    match p.s.scan with
    | (tok, s) => (tok, { p with s := s, last := tok })

/-- `parser.unscan` (parser.go:171-173) -/
def MParser.unscan (p : MParser) : MParser := { p with stepback := true }

/-- the buffer as it is now -/
def MParser.mem (p : MParser) : Bytes := p.s.r.buf

/-- `parser.parse` (parser.go:143-150): the message parser reads the literal out of the buffer; the strings it makes are copies. What it
still holds of the message before may have changed in the meantime. -/
def MParser.parseMsg (p : MParser) (lit : Lit) : Option (Result × MParser) :=
  match Rfc5424.parse { p.internal with data := p.held.bytes p.mem } (lit.bytes p.mem) with
  | none => none
  | some (r, m) => some (⟨r.msg, r.err.map .message⟩, { p with internal := m, held := lit })

/-- The loop of `run` (parser.go:77-141). `fmt.Errorf` copies the literals when it is called. -/
def mrunLoop : Nat → MParser → Option (List Result × MParser)
  | 0, _ => none
  | fuel + 1, p =>
    match p.scan with
    | (tok, p) =>
    if tok.typ ≠ .MSGLEN then some ([⟨none, some (.notMsgLen (tok.now p.mem))⟩], p)
    else if toInt p.s.msglen > p.maxMessageLength then
      some ([⟨none, some (.tooLong p.s.msglen p.maxMessageLength)⟩], p)
    else
    match p.scan with
    | (tok, p) =>
    if tok.typ ≠ .WS then some ([⟨none, some (.notWS (tok.now p.mem))⟩], p)
    else
    match p.scan with
    | (tok, p) =>
    if tok.typ ≠ .SYSLOGMSG then
      let e := Error.notMsg (tok.now p.mem) p.s.msglen
      if ((tok.lit.bytes p.mem).length : Int) < toInt p.s.msglen ∧ p.bestEffort = true then
        match p.parseMsg tok.lit with
        | none => none
        | some (result, p) =>
          some ([⟨result.msg, match result.err with | none => some e | some e' => some e'⟩], p)
      else some ([⟨none, some e⟩], p)
    else
    match p.parseMsg tok.lit with
    | none => none
    | some (result, p) =>
      let out := if p.bestEffort = true ∨ result.err = none then [result] else []
      if p.bestEffort = false ∧ result.err ≠ none then some (out ++ [⟨none, result.err⟩], p)
      else
      match p.scan with
      | (tok, p) =>
      if tok.typ = .EOF then some (out, p)
      else
        match mrunLoop fuel p.unscan with
        | none => none
        | some (rest, p) => some (out ++ rest, p)

/-- `parser.Parse` (parser.go:72-75) -/
def MParser.parse (p : MParser) (sched : List MRead) : Option (List Result × MParser) :=
  let s := mnewScanner sched p.maxMessageLength
  mrunLoop (s.r.remaining + 1) { p with s := s }

/-- `parser.Parse` (parser.go:72-75) on a `*bufio.Reader` whose buffer is large enough: the scanner uses it, and its array -/
def MParser.parseOn (p : MParser) (rd : MReader) : Option (List Result × MParser) :=
  mrunLoop (rd.remaining + 1) { p with s := { r := rd } }

end Verif.Octet
