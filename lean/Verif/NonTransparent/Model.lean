import Verif.Rfc5424.Machine

/-!
# `nontransparent/parser.go`, `nontransparent/trailer_type.go`

The loop around `Exec` is in the external module `github.com/leodido/ragel-machinery`, which is not in the repository.
What this model assumes about it (`Driver`, `drive`) is what its documentation and the repository's tests show:
`ArbitraryReader` cuts the stream after every trailer byte; `Parse` runs `Exec` on each such chunk with the state left by
the previous one, reports the rest of the stream with `OnEOF`/`OnErr` and then calls `OnCompletion`. Everything the tests
do not fix is a field of `Driver`, and the theorems hold for all its values.
-/

namespace Verif.NonTransparent
open Verif.Rfc5424 (SyslogMessage)

/-! ## `trailer_type.go` -/

/-- `TrailerType` (trailer_type.go:9) -/
abbrev TrailerType := Int

/-- trailer_type.go:13 -/
def LF : TrailerType := 0
/-- trailer_type.go:15 -/
def NUL : TrailerType := 1

/-- `TrailerType.String` (trailer_type.go:21-27) -/
def TrailerType.string (t : TrailerType) : Bytes :=
  if t < LF ∨ t > NUL then [] else if t = LF then ascii "LF" else ascii "NUL"

/-- `TrailerType.Value` (trailer_type.go:30-36); `none` is the error -/
def TrailerType.value (t : TrailerType) : Option UInt8 :=
  if t < LF ∨ t > NUL then none else if t = LF then some 10 else some 0

/-- `strings.ToUpper` as far as it matters for the comparison with the six ASCII constants of `TrailerTypeFromString`:
ASCII letters. Simplification: other bytes are left alone; the only non-ASCII characters with an ASCII upper case
are U+0131 (I) and U+017F (S), and neither I nor S occurs in the constants, so the comparison has the same outcome. -/
def toUpper (s : Bytes) : Bytes := s.map fun b => if 97 ≤ b.toNat ∧ b.toNat ≤ 122 then b - 32 else b

/-- `TrailerTypeFromString` (trailer_type.go:39-56): the value and whether the error is nil -/
def trailerTypeFromString (s : Bytes) : TrailerType × Bool :=
  if toUpper s = ascii "\"LF\"" then (LF, true)
  else if toUpper s = ascii "'LF'" then (LF, true)
  else if toUpper s = ascii "LF" then (LF, true)
  else if toUpper s = ascii "\"NUL\"" then (NUL, true)
  else if toUpper s = ascii "'NUL'" then (NUL, true)
  else if toUpper s = ascii "NUL" then (NUL, true)
  else (-1, false)

/-- `UnmarshalText` (trailer_type.go:64-67), `UnmarshalTOML` (trailer_type.go:59-61): the new value of `*t`, whatever it was, and
whether the error is nil -/
def unmarshalText (_t : TrailerType) (data : Bytes) : TrailerType × Bool := trailerTypeFromString data

/-- `MarshalText` (trailer_type.go:70-76); `none` is the error -/
def TrailerType.marshalText (t : TrailerType) : Option Bytes := if t.string ≠ [] then some t.string else none

/-! ## `parser.go` -/

/-- Error of the reader handed to `OnErr`: the stream ends without a trailer, or any other. -/
inductive ReadErr where
  | unexpectedEOF
  | other (n : Nat)
  deriving DecidableEq, Repr

/-- Error of a result: of the message parser or of the reader (parser.go:186-193). -/
inductive Error where
  | message (e : Rfc5424.Err)
  | reading (e : ReadErr)
  deriving DecidableEq, Repr

/-- `syslog.Result` as passed to the listener -/
structure Result where
  msg : Option SyslogMessage := none
  err : Option Error := none
  deriving DecidableEq, Repr

/-- `machine` (parser.go:16-25); the listener is modelled by the list `out` of the results it got so far. -/
structure Machine where
  trailertyp : TrailerType := 0
  trailer : UInt8 := 0
  candidate : Bytes := []
  bestEffort : Bool := false
  internal : Rfc5424.M := {}
  readError : Option ReadErr := none
  lastChunk : Bytes := []
  out : List Result := []

/-- `m.internal.Parse(data)`; `none` is a panic -/
def Machine.parseMsg (m : Machine) (data : Bytes) : Option (Option SyslogMessage × Option Rfc5424.Err × Machine) :=
  match Rfc5424.parse m.internal data with
  | none => none
  | some (r, i) => some (r.msg, r.err, { m with internal := i })

/-- `process` (parser.go:262-272); `none` is a panic (also of `m.candidate[-1]`) -/
def Machine.process (m : Machine) : Option Machine :=
  match m.candidate.getLast? with
  | none => none
  | some lastByte =>
    let m := if lastByte = m.trailer then { m with candidate := m.candidate.dropLast } else m
    match m.parseMsg m.candidate with
    | none => none
    | some (res, err, m) => some { m with out := m.out ++ [⟨res, err.map .message⟩] }

/-- `_widec` (parser.go:70-84, 114-128) -/
def widec (t : TrailerType) (b : UInt8) : Nat :=
  if b.toNat > 0 then
    if 10 ≤ b.toNat ∧ b.toNat ≤ 10 then 256 + b.toNat + (if t = LF then 256 else 0) else b.toNat
  else 768 + b.toNat + (if t = NUL then 256 else 0)

/-- the target of the transitions of state 2 (parser.go:85-103), and of state 3 except on `<` (parser.go:129-149); `tr3` is `none` -/
def next23 (w : Nat) : Option Nat :=
  if w = 266 then some 2
  else if w = 522 then none
  else if w = 768 then some 2
  else if w = 1024 then none
  else if w > 9 then (if 11 ≤ w then some 2 else some 0)
  else if w ≥ 1 then some 2
  else some 0

/-- `tr0` (parser.go:57-64): process the candidate, if any, and start a new one -/
def Machine.tr0 (m : Machine) : Option Machine :=
  if m.candidate.length > 0 then
    match m.process with
    | none => none
    | some m => some { m with candidate := [] }
  else some { m with candidate := [] }

/-- One round of `Exec` in state `cs` on byte `b` of `data` (parser.go:36-149): the next state; 0 is the error state -/
def stepByte (data : Bytes) (cs : Nat) (b : UInt8) (m : Machine) : Option (Nat × Machine) :=
  if cs = 1 then
    if b = 60 then m.tr0.map fun m => (2, m) else some (0, m)
  else if cs = 2 then
    match next23 (widec m.trailertyp b) with
    | none => some (3, { m with candidate := m.candidate ++ data })
    | some n => some (n, m)
  else if cs = 3 then
    if widec m.trailertyp b = 60 then m.tr0.map fun m => (2, m)
    else
      match next23 (widec m.trailertyp b) with
      | none => some (3, { m with candidate := m.candidate ++ data })
      | some n => some (n, m)
  else some (0, m)

/-- The bytes of `Exec` (parser.go:28-169): the final state and whether all bytes were consumed (`p == pe`) -/
def execLoop (data : Bytes) : Bytes → Nat → Machine → Option (Nat × Bool × Machine)
  | [], cs, m => some (cs, true, m)
  | b :: rest, cs, m =>
    match stepByte data cs b m with
    | none => none
    | some (cs', m') => if cs' = 0 then some (0, false, m') else execLoop data rest cs' m'

/-- `Exec` (parser.go:28-169) -/
def exec (data : Bytes) (cs : Nat) (m : Machine) : Option (Nat × Bool × Machine) := execLoop data data cs m

/-- `OnErr` (parser.go:171-175) -/
def Machine.onErr (m : Machine) (chunk : Bytes) (e : ReadErr) : Machine := { m with lastChunk := chunk, readError := some e }

/-- `OnEOF` (parser.go:177-178) -/
def Machine.onEOF (m : Machine) (_chunk : Bytes) : Machine := m

/-- `OnCompletion` (parser.go:180-195) -/
def Machine.onCompletion (m : Machine) : Option Machine :=
  match (if m.candidate.length > 0 then m.process else some m) with
  | none => none
  | some m =>
    match m.readError with
    | some re =>
      if m.lastChunk.length > 0 then
        match m.parseMsg m.lastChunk with
        | none => none
        | some (res, err, m) =>
          some { m with out := m.out ++ [⟨res, match err with | none => some (.reading re) | some e => some (.message e)⟩] }
      else some m
    | none => some m

/-- What is not known about the external loop: does it stop when `Exec` did not consume its chunk; is `Exec` also run
on the last chunk when it does not end with the trailer; is the end of the stream right after a trailer (or an empty stream)
reported by `OnErr` (with an empty chunk) instead of `OnEOF`. -/
structure Driver where
  stopOnFail : Bool
  execLast : Bool
  errOnEmpty : Bool

/-- The chunks of a stream: up to and including each trailer, and what follows the last trailer. -/
def chunks (t : UInt8) : Bytes → List Bytes × Bytes
  | [] => ([], [])
  | b :: rest =>
    match chunks t rest with
    | (cs, last) =>
      if b = t then ([b] :: cs, last)
      else
        match cs with
        | [] => ([], b :: last)
        | c :: cs => ((b :: c) :: cs, last)

/-- The loop over the chunks (external). `end_` is the error reported with an unterminated last chunk. -/
def drive (d : Driver) (end_ : ReadErr) (last : Bytes) : List Bytes → Nat → Machine → Option Machine
  | [], cs, m =>
    if last = [] then some (if d.errOnEmpty then m.onErr [] end_ else m.onEOF [])
    else if d.execLast then
      match exec last cs m with
      | none => none
      | some (_, _, m) => some (m.onErr last end_)
    else some (m.onErr last end_)
  | c :: rest, cs, m =>
    match exec c cs m with
    | none => none
    | some (cs', ok, m') => if ok = false ∧ d.stopOnFail = true then some m' else drive d end_ last rest cs' m'

/-- `machine.Parse` (parser.go:257-260): one run over a stream; the results are appended to `out`. `end_` is the error
reported when the bytes end without a trailer: `io.ErrUnexpectedEOF`, or the error of the reader that ended the stream. -/
def Machine.parse (d : Driver) (m : Machine) (bytes : Bytes) (end_ : ReadErr := .unexpectedEOF) : Option Machine :=
  match drive d end_ (chunks m.trailer bytes).2 (chunks m.trailer bytes).1 1 m with
  | none => none
  | some m => m.onCompletion

/-- Options (`syslog.WithBestEffort`, `WithTrailer`, `syslog.WithMaxMessageLength`). -/
inductive Opt where
  | bestEffort
  | trailer (t : TrailerType)
  | maxMessageLength (n : Int)

/-- options.go:14-27 with nontransparent/parser.go:221-245 -/
def applyOpt (m : Machine) : Opt → Machine
  | .bestEffort => { m with bestEffort := true }
  | .trailer t =>
    match TrailerType.value t with
    | some v => { m with trailer := v, trailertyp := t }
    | none => m
  | .maxMessageLength _ => m

/-- `NewParser` (parser.go:198-219) -/
def newParser (opts : List Opt) : Machine :=
  let m := opts.foldl applyOpt {}
  { m with trailer := (TrailerType.value m.trailertyp).getD 255,
           internal := Rfc5424.newMachine { bestEffort := m.bestEffort } }

end Verif.NonTransparent
