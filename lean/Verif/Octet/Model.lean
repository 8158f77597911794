import Verif.Rfc5424.Machine

/-!
# `octetcounting/scanner.go`, `octetcounting/tokens.go`, `octetcounting/parser.go`

Includes a model of the part of Go's `bufio.Reader` the scanner uses. The underlying `io.Reader` is a list of what
its successive `Read` calls deliver; after the list it answers `0, io.EOF` for ever.
-/

namespace Verif.Octet
open Verif.Rfc5424 (SyslogMessage)

/-! ## `io.Reader` and `bufio.Reader` -/

/-- What one `Read` call delivers: bytes, and whether the returned error is non-nil (`io.EOF` or any other: the
scanner does not look at the error value). When the caller's slice is too small the rest is delivered by the next
calls. -/
structure Read where
  data : Bytes
  err : Bool
  deriving DecidableEq, Repr

/-- `rd.Read(p)` with `len(p) = space`: the bytes, whether an error was returned, and the following behaviour -/
def readCall (space : Nat) : List Read → Bytes × Bool × List Read
  | [] => ([], true, [])
  | r :: rs =>
    if r.data.length ≤ space then (r.data, r.err, rs)
    else (r.data.take space, false, ⟨r.data.drop space, r.err⟩ :: rs)

/-- `bufio.Reader`. `q` is `buf[r:w]`, `r` the read index, `cap` is `len(buf)`, `last` is `lastByte`. -/
structure Reader where
  q : Bytes := []
  r : Nat := 0
  cap : Nat
  err : Bool := false
  last : Option UInt8 := none
  sched : List Read
  deriving DecidableEq, Repr

/-- The loop of `bufio.Reader.fill` (`maxConsecutiveEmptyReads` attempts); then `io.ErrNoProgress`. -/
def fillLoop : Nat → Reader → Reader
  | 0, rd => { rd with err := true }
  | i + 1, rd =>
    match readCall (rd.cap - rd.q.length) rd.sched with
    | (d, e, s) =>
      if e then { rd with q := rd.q ++ d, err := true, sched := s }
      else if d ≠ [] then { rd with q := rd.q ++ d, sched := s }
      else fillLoop i { rd with sched := s }

/-- `bufio.Reader.fill`: slides the data to the start of the buffer and reads. It is only called when the buffer is not
full (`ReadByte`: it is empty; `Peek`: guarded), so its panic is not modelled. -/
def Reader.fill (rd : Reader) : Reader := fillLoop 100 { rd with r := 0 }

/-- `bufio.Reader.ReadByte`; `none` is a non-nil error. After one `fill` there is a byte or an error, so the Go loop
runs `fill` at most once. -/
def Reader.readByte (rd : Reader) : Option UInt8 × Reader :=
  let rd1 := if rd.q = [] ∧ rd.err = false then rd.fill else rd
  match rd1.q with
  | [] => (none, { rd1 with err := false })
  | b :: q => (some b, { rd1 with q := q, r := rd1.r + 1, last := some b })

/-- `bufio.Reader.UnreadByte` (its error is ignored by the scanner). -/
def Reader.unreadByte (rd : Reader) : Reader :=
  match rd.last with
  | none => rd
  | some b =>
    if rd.r = 0 ∧ rd.q ≠ [] then rd
    else { rd with q := b :: rd.q, r := rd.r - 1, last := none }

/-- The loop of `bufio.Reader.Peek`: `for w-r < n && w-r < len(buf) && err == nil { fill() }`. Every round
delivers a byte or sets `err`; `fuel` bounds the rounds. -/
def peekFill (n : Nat) : Nat → Reader → Reader
  | 0, rd => rd
  | fuel + 1, rd =>
    if rd.q.length < n ∧ rd.q.length < rd.cap ∧ rd.err = false then peekFill n fuel rd.fill else rd

/-- `bufio.Reader.Peek(n)`: the bytes, whether the error is nil. -/
def Reader.peek (rd : Reader) (n : Int) : Bytes × Bool × Reader :=
  if n < 0 then ([], false, rd)
  else
    let rd1 := peekFill n.toNat (n.toNat + 1) { rd with last := none }
    if rd1.cap < n.toNat then (rd1.q, false, rd1)
    else if rd1.q.length < n.toNat then (rd1.q, false, { rd1 with err := false })
    else (rd1.q.take n.toNat, true, rd1)

/-- `bufio.Reader.Discard(n)` for `0 < n ≤ Buffered()` (it is only called after a successful `Peek(n)`). -/
def Reader.discard (rd : Reader) (n : Nat) : Reader := { rd with q := rd.q.drop n, r := rd.r + n, last := none }

/-- bytes that can still be read -/
def Reader.remaining (rd : Reader) : Nat := rd.q.length + (rd.sched.map fun x => x.data.length).sum

/-- `bufio.NewReaderSize(r, size)` for an `r` that is not a `*bufio.Reader`; `minReadBufferSize` is 16. Simplification: memory is
unbounded (`make` does not panic for a large `size`). -/
def newReader (size : Int) (sched : List Read) : Reader := { cap := if size < 16 then 16 else size.toNat, sched := sched }

/-- what the `Read` calls of a `*bufio.Reader` deliver, when it is wrapped in another one: what it has buffered, its pending error, what
its own reader delivers. Simplification: its pieces may be smaller. -/
def Reader.asReads (rd : Reader) : List Read :=
  (if rd.q = [] then [] else [⟨rd.q, false⟩]) ++ (if rd.err then [⟨[], true⟩] else []) ++ rd.sched

/-- `bufio.NewReaderSize(r, size)` for an `r` that is a `*bufio.Reader`: `r` itself, if its buffer is large enough -/
def newReaderOn (size : Int) (rd : Reader) : Reader := if size ≤ rd.cap then rd else newReader size rd.asReads

/-! ## `tokens.go` -/

/-- `TokenType` (tokens.go:14-23) -/
inductive TokenType where
  | ILLEGAL | EOF | WS | MSGLEN | SYSLOGMSG
  deriving DecidableEq, Repr

/-- `Token` (tokens.go:8-11) -/
structure Token where
  typ : TokenType
  lit : Bytes := []
  deriving DecidableEq, Repr

/-! ## `scanner.go` -/

/-- `isDigit` (scanner.go:20-22): note the 47 -/
def isDigit (ch : UInt8) : Bool := decide (47 ≤ ch.toNat) && decide (ch.toNat ≤ 57)

/-- `isNonZeroDigit` (scanner.go:25-27): note the 48 -/
def isNonZeroDigit (ch : UInt8) : Bool := decide (48 ≤ ch.toNat) && decide (ch.toNat ≤ 57)

/-- `strconv.ParseUint(s, 10, 64)` with the error dropped, on a non-empty `s`; `n` is the value so far. A byte that is
not a digit gives 0, overflow gives `1<<64 - 1` (whichever comes first). -/
def parseUint : Bytes → Nat → Nat
  | [], n => n
  | c :: cs, n =>
    if c.toNat < 48 ∨ 57 < c.toNat then 0
    else if (2 ^ 64 - 1) / 10 + 1 ≤ n then 2 ^ 64 - 1
    else if 2 ^ 64 ≤ n * 10 + (c.toNat - 48) then 2 ^ 64 - 1
    else parseUint cs (n * 10 + (c.toNat - 48))

/-- The conversion `int(x)` of a `uint64`. -/
def toInt (x : Nat) : Int := if x < 2 ^ 63 then x else (x : Int) - 2 ^ 64

/-- `Scanner` (scanner.go:30-34) -/
structure Scanner where
  r : Reader
  msglen : Nat := 0
  ready : Bool := false
  deriving DecidableEq, Repr

/-- the value of a sum of two `int`s (64 bits, two's complement) -/
def wrapInt (n : Int) : Int := (n + 2 ^ 63) % 2 ^ 64 - 2 ^ 63

/-- `NewScanner` (scanner.go:37-41) on a reader that is not a `*bufio.Reader`; `maxLength+20` can overflow -/
def newScanner (sched : List Read) (maxLength : Int) : Scanner := { r := newReader (wrapInt (maxLength + 20)) sched }

/-- `NewScanner` (scanner.go:37-41) on a `*bufio.Reader` -/
def newScannerOn (rd : Reader) (maxLength : Int) : Scanner := { r := newReaderOn (wrapInt (maxLength + 20)) rd }

/-- `Scanner.read` (scanner.go:45-51) -/
def Scanner.read (s : Scanner) : UInt8 × Scanner :=
  match s.r.readByte with
  | (none, r) => (0, { s with r := r })
  | (some b, r) => (b, { s with r := r })

/-- `Scanner.unread` (scanner.go:54-56) -/
def Scanner.unread (s : Scanner) : Scanner := { s with r := s.r.unreadByte }

/-- The loop of `scanMsgLen` (scanner.go:102-111); every round but the last consumes a byte, `fuel` bounds the rounds. -/
def scanDigits : Nat → Scanner → Bytes → Bytes × Scanner
  | 0, s, buf => (buf, s)
  | fuel + 1, s, buf =>
    match s.read with
    | (b, s1) =>
      if b = 0 then (buf, s1)
      else if !isDigit b then (buf, s1.unread)
      else scanDigits fuel s1 (buf ++ [b])

/-- `Scanner.scanMsgLen` (scanner.go:95-120) -/
def Scanner.scanMsgLen (s : Scanner) : Token × Scanner :=
  match s.read with
  | (b, s1) =>
    match scanDigits (s1.r.remaining + 1) s1 [b] with
    | (buf, s2) => (⟨.MSGLEN, buf⟩, { s2 with msglen := parseUint buf 0 })

/-- `Scanner.scanSyslogMsg` (scanner.go:122-144). The returned bytes alias the buffer in Go; they are parsed (and
copied by `string(...)`) before the next read. -/
def Scanner.scanSyslogMsg (s : Scanner) : Token × Scanner :=
  match s.r.peek (toInt s.msglen) with
  | (b, false, r) => (⟨.EOF, b⟩, { s with r := r })
  | (b, true, r) => (⟨.SYSLOGMSG, b⟩, { s with r := r.discard (toInt s.msglen).toNat, ready := false, msglen := 0 })

/-- `Scanner.Scan` (scanner.go:59-93) -/
def Scanner.scan (s : Scanner) : Token × Scanner :=
  match s.read with
  | (b, s1) =>
    if isNonZeroDigit b then { s1.unread with ready := false }.scanMsgLen
    else if b = 0 then (⟨.EOF, []⟩, { s1 with ready := false })
    else if b = 32 then (⟨.WS, [32]⟩, { s1 with ready := true })
    else if b = 60 ∧ s1.msglen > 0 ∧ s1.ready = true then s1.unread.scanSyslogMsg
    else (⟨.ILLEGAL, [b]⟩, s1)

/-! ## `parser.go` -/

/-- The errors a listener can get: the ones of the message parser, and the framing errors of `run`
(parser.go:83-85, 90-92, 98-100, 106). -/
inductive Error where
  | message (e : Rfc5424.Err)
  | notMsgLen (tok : Token)
  | tooLong (msglen : Nat) (max : Int)
  | notWS (tok : Token)
  | notMsg (tok : Token) (msglen : Nat)
  deriving DecidableEq, Repr

/-- `syslog.Result` as passed to the listener -/
structure Result where
  msg : Option SyslogMessage := none
  err : Option Error := none
  deriving DecidableEq, Repr

/-- `parser` (parser.go:14-23); the listener is modelled by the sequence of the results it gets. The field
`msglen` of the Go type is never used. -/
structure Parser where
  maxMessageLength : Int := 8192
  bestEffort : Bool := false
  s : Scanner := { r := { cap := 16, sched := [] } }
  internal : Rfc5424.M := {}
  last : Token := ⟨.ILLEGAL, []⟩
  stepback : Bool := false

/-- Options that change the parser (`syslog.WithBestEffort`, `syslog.WithMaxMessageLength`; options.go). -/
inductive Opt where
  | bestEffort
  | maxMessageLength (n : Int)

def applyOpt (p : Parser) : Opt → Parser
  | .bestEffort => { p with bestEffort := true }
  | .maxMessageLength n => { p with maxMessageLength := n }

/-- `NewParser` (parser.go:26-44) -/
def newParser (opts : List Opt) : Parser :=
  let p := opts.foldl applyOpt {}
  { p with internal := Rfc5424.newMachine { bestEffort := p.bestEffort } }

/-- `parser.scan` (parser.go:154-168) -/
def Parser.scan (p : Parser) : Token × Parser :=
  if p.stepback then (p.last, { p with stepback := false })
  else
    match p.s.scan with
    | (tok, s) => (tok, { p with s := s, last := tok })

/-- `parser.unscan` (parser.go:171-173) -/
def Parser.unscan (p : Parser) : Parser := { p with stepback := true }

/-- `parser.parse` (parser.go:143-150); `none` is a panic of the message parser -/
def Parser.parseMsg (p : Parser) (input : Bytes) : Option (Result × Parser) :=
  match Rfc5424.parse p.internal input with
  | none => none
  | some (r, m) => some (⟨r.msg, r.err.map .message⟩, { p with internal := m })

/-- The loop of `run` (parser.go:77-141): the results emitted, in order, and the parser afterwards; `none`: the message
parser panicked or the loop did not end within `fuel` rounds. -/
def runLoop : Nat → Parser → Option (List Result × Parser)
  | 0, _ => none
  | fuel + 1, p =>
    match p.scan with
    | (tok, p) =>
    if tok.typ ≠ .MSGLEN then some ([⟨none, some (.notMsgLen tok)⟩], p)
    else if toInt p.s.msglen > p.maxMessageLength then
      some ([⟨none, some (.tooLong p.s.msglen p.maxMessageLength)⟩], p)
    else
    match p.scan with
    | (tok, p) =>
    if tok.typ ≠ .WS then some ([⟨none, some (.notWS tok)⟩], p)
    else
    match p.scan with
    | (tok, p) =>
    if tok.typ ≠ .SYSLOGMSG then
      let e := Error.notMsg tok p.s.msglen
      if (tok.lit.length : Int) < toInt p.s.msglen ∧ p.bestEffort = true then
        match p.parseMsg tok.lit with
        | none => none
        | some (result, p) =>
          some ([⟨result.msg, match result.err with | none => some e | some e' => some e'⟩], p)
      else some ([⟨none, some e⟩], p)
    else
    match p.parseMsg tok.lit with
    | none => none
    | some (result, p) =>
      let out := if p.bestEffort = true ∨ result.err = none then [result] else []
      if p.bestEffort = false ∧ result.err ≠ none then some (out ++ [⟨none, result.err⟩], p)
      else
      match p.scan with
      | (tok, p) =>
      if tok.typ = .EOF then some (out, p)
      else
        match runLoop fuel p.unscan with
        | none => none
        | some (rest, p) => some (out ++ rest, p)

/-- `parser.Parse` (parser.go:72-75): the sequence of results passed to the listener, and the parser afterwards.
Every round of the loop that is not the last one consumes a message, hence the fuel. -/
def Parser.parse (p : Parser) (sched : List Read) : Option (List Result × Parser) :=
  let s := newScanner sched p.maxMessageLength
  runLoop (s.r.remaining + 1) { p with s := s }

/-- `parser.Parse` (parser.go:72-75) on a `*bufio.Reader` -/
def Parser.parseOn (p : Parser) (rd : Reader) : Option (List Result × Parser) :=
  let s := newScannerOn rd p.maxMessageLength
  runLoop (s.r.remaining + 1) { p with s := s }

end Verif.Octet
