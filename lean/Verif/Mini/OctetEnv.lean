import Verif.Mini.Export
import Verif.Octet.Open

/-!
# The octet counting package: what it uses of other packages

`bufio.Reader` is the model of `Verif/Octet/Model.lean`; the message parser is that of `Verif/Rfc5424/Machine.lean`, with the options
that the fields of its struct say; the listener records what it gets.
-/

set_option linter.constructorNameAsVariable false
set_option linter.unusedSimpArgs false

namespace Verif.Mini
open Verif.Gen.Mini

/-- What belongs to other packages: what the `io.Reader` delivers, the `bufio.Reader`, what the listener got (the two fields of
`syslog.Result`, as they were when it was called). -/
structure EO where
  src : List Octet.Read
  rd : Octet.Reader
  out : List (Val × Val)

def msgVal : Option Rfc5424.SyslogMessage → Val
  | none => .nil
  | some m => .ext (.msg5 m)

def err5Val : Option Rfc5424.Err → Val
  | none => .nil
  | some e => .ext (.err5 e)

/-- `bufio.NewReaderSize(r, n)` for the `io.Reader` that was given (object 0); the result is object 1 -/
def xNewReaderSize : List Val → M EO Val
  | [.ext (.obj 0), .int _ n] => fun w => some (.ok (.ext (.obj 1)) { w with ext := { w.ext with rd := Octet.newReader n w.ext.src } })
  | _ => M.stuck

/-- `ReadByte()` -/
def xReadByte : List Val → M EO Val
  | [.ext (.obj 1)] => fun w => match w.ext.rd.readByte with
    | (some b, rd) => some (.ok (.tuple [byteVal b, .nil]) { w with ext := { w.ext with rd := rd } })
    | (none, rd) => some (.ok (.tuple [byteVal 0, .ext (.readErr 0)]) { w with ext := { w.ext with rd := rd } })
  | _ => M.stuck

/-- `UnreadByte()`; the error is not used by the package and not modelled -/
def xUnreadByte : List Val → M EO Val
  | [.ext (.obj 1)] => fun w => some (.ok .nil { w with ext := { w.ext with rd := w.ext.rd.unreadByte } })
  | _ => M.stuck

/-- `Peek(n)` -/
def xPeek : List Val → M EO Val
  | [.ext (.obj 1), .int _ n] => fun w => match w.ext.rd.peek n with
    | (b, ok, rd) => some (.ok (.tuple [.str b, if ok then .nil else .ext (.readErr 0)]) { w with ext := { w.ext with rd := rd } })
  | _ => M.stuck

/-- `Discard(n)`, after a successful `Peek(n)`; the results are not used by the package and not modelled -/
def xDiscard : List Val → M EO Val
  | [.ext (.obj 1), .int _ n] => fun w => some (.ok .nil { w with ext := { w.ext with rd := w.ext.rd.discard n.toNat } })
  | _ => M.stuck

/-- `bytes.Buffer.WriteByte(b)`: the buffer is a variable with the bytes -/
def xWriteByte : List Val → M EO Val
  | [.ptr a [], .int .u8 b] => fun w => match w.heap a with
    | .str s => some (.ok .nil { w with heap := upd w.heap a (.str (s ++ [UInt8.ofInt b])) })
    | _ => none
  | _ => M.stuck

/-- `bytes.Buffer.String()`, `bytes.Buffer.Bytes()` -/
def xBuffer : List Val → M EO Val
  | [.ptr a []] => fun w => match w.heap a with
    | .str s => some (.ok (.str s) w)
    | _ => none
  | _ => M.stuck

/-- `strconv.ParseUint(s, 10, 64)`; the error is not used by the package and not modelled -/
def xParseUint : List Val → M EO Val
  | [.str s, _, _] => M.pure (.tuple [.int .u64 (Octet.parseUint s 0), .nil])
  | _ => M.stuck

/-- `fmt.Errorf(format, args...)` -/
def xErrorf : List Val → M EO Val
  | .str f :: args => M.pure (.err f args)
  | _ => M.stuck

/-- a `[]byte` that is a value -/
def Val.bytes : Val → Bytes
  | .str s => s
  | _ => []

/-- `m.Parse(input)` for the machine in the variable `a` -/
def xParse5 : List Val → M EO Val
  | [.ptr a [], input] => fun w => match (w.heap a).get .bestEffort, (w.heap a).get .compliantMsg with
    | some (.bool be), some (.bool co) => match Rfc5424.parse1 ⟨be, co⟩ input.bytes with
      | none => some (.panic w)
      | some r => some (.ok (.tuple [msgVal r.msg, err5Val r.err]) w)
    | _, _ => none
  | _ => M.stuck

/-- the listener gets a pointer to a `syslog.Result` -/
def xEmit : List Val → M EO Val
  | [.ptr a []] => fun w => match (w.heap a).get .Message, (w.heap a).get .Error with
    | some m, some e => some (.ok (.tuple []) { w with ext := { w.ext with out := w.ext.out ++ [(m, e)] } })
    | _, _ => none
  | _ => M.stuck

/-- the functions of other packages; `parse` is the method `Parse` of `rfc5424`, `emit` the listener -/
def octCallE (parse emit : List Val → M EO Val) (f : Nm) (args : List Val) : M EO Val :=
  match f with
  | .bufio_NewReaderSize => xNewReaderSize args
  | .bufio_ReadByte => xReadByte args
  | .bufio_UnreadByte => xUnreadByte args
  | .bufio_Peek => xPeek args
  | .bufio_Discard => xDiscard args
  | .bytes_WriteByte => xWriteByte args
  | .bytes_String => xBuffer args
  | .bytes_Bytes => xBuffer args
  | .strconv_ParseUint => xParseUint args
  | .fmt_Errorf => xErrorf args
  | .rfc5424_machine_Parse => parse args
  | .emit => emit args
  | _ => M.stuck

/-- with a listener that records -/
abbrev octCallP (parse : List Val → M EO Val) : Nm → List Val → M EO Val := octCallE parse xEmit

/-- the program, with any functions of other packages; the sizes that `append` allocates and the order of maps are arbitrary -/
def octXC (extra : Nat → Nat) (order : List Bytes → List Bytes) (other : Nm → List Val → M EO Val) : Env0 EO :=
  { extra := extra, order := order, call := other, meth := meth, prog := prog }

/-- the same, with these functions of other packages -/
abbrev octXE (extra : Nat → Nat) (order : List Bytes → List Bytes) (parse emit : List Val → M EO Val) : Env0 EO := octXC extra order (octCallE parse emit)

/-- the same, with a listener that records -/
abbrev octXP (extra : Nat → Nat) (order : List Bytes → List Bytes) (parse : List Val → M EO Val) : Env0 EO := octXE extra order parse xEmit

/-- the same, where the message parser returns messages as values -/
abbrev octX (extra : Nat → Nat) (order : List Bytes → List Bytes) : Env0 EO := octXP extra order xParse5

section
variable (extra : Nat → Nat) (order : List Bytes → List Bytes) (parse emit : List Val → M EO Val) (n : Nat) (args : List Val)

theorem octc_prog (other : Nm → List Val → M EO Val) : (octXC extra order other).prog = prog := rfl
theorem oct_prog : (octXE extra order parse emit).prog = prog := rfl
@[simp] theorem oct_NewReaderSize : call (octXE extra order parse emit) (n + 1) .bufio_NewReaderSize args = xNewReaderSize args := rfl
@[simp] theorem oct_ReadByte : call (octXE extra order parse emit) (n + 1) .bufio_ReadByte args = xReadByte args := rfl
@[simp] theorem oct_UnreadByte : call (octXE extra order parse emit) (n + 1) .bufio_UnreadByte args = xUnreadByte args := rfl
@[simp] theorem oct_Peek : call (octXE extra order parse emit) (n + 1) .bufio_Peek args = xPeek args := rfl
@[simp] theorem oct_Discard : call (octXE extra order parse emit) (n + 1) .bufio_Discard args = xDiscard args := rfl
@[simp] theorem oct_WriteByte : call (octXE extra order parse emit) (n + 1) .bytes_WriteByte args = xWriteByte args := rfl
@[simp] theorem oct_String : call (octXE extra order parse emit) (n + 1) .bytes_String args = xBuffer args := rfl
@[simp] theorem oct_Bytes : call (octXE extra order parse emit) (n + 1) .bytes_Bytes args = xBuffer args := rfl
@[simp] theorem oct_ParseUint : call (octXE extra order parse emit) (n + 1) .strconv_ParseUint args = xParseUint args := rfl
@[simp] theorem oct_Errorf : call (octXE extra order parse emit) (n + 1) .fmt_Errorf args = xErrorf args := rfl
@[simp] theorem oct_Parse5 : call (octXE extra order parse emit) (n + 1) .rfc5424_machine_Parse args = parse args := rfl
@[simp] theorem oct_emit : call (octXE extra order parse emit) (n + 1) .emit args = emit args := rfl
end

section
variable (w : W EO)
@[simp] theorem xNewReaderSize_apply (k : Kind) (n : Int) : xNewReaderSize [.ext (.obj 0), .int k n] w =
    some (.ok (.ext (.obj 1)) { w with ext := { w.ext with rd := Octet.newReader n w.ext.src } }) := rfl
@[simp] theorem xReadByte_apply : xReadByte [.ext (.obj 1)] w =
    match w.ext.rd.readByte with
    | (some b, rd) => some (.ok (.tuple [byteVal b, .nil]) { w with ext := { w.ext with rd := rd } })
    | (none, rd) => some (.ok (.tuple [byteVal 0, .ext (.readErr 0)]) { w with ext := { w.ext with rd := rd } }) := rfl
@[simp] theorem xUnreadByte_apply : xUnreadByte [.ext (.obj 1)] w = some (.ok .nil { w with ext := { w.ext with rd := w.ext.rd.unreadByte } }) := rfl
@[simp] theorem xPeek_apply (k : Kind) (n : Int) : xPeek [.ext (.obj 1), .int k n] w =
    some (.ok (.tuple [.str (w.ext.rd.peek n).1, if (w.ext.rd.peek n).2.1 then .nil else .ext (.readErr 0)]) { w with ext := { w.ext with rd := (w.ext.rd.peek n).2.2 } }) := rfl
@[simp] theorem xDiscard_apply (k : Kind) (n : Int) : xDiscard [.ext (.obj 1), .int k n] w =
    some (.ok .nil { w with ext := { w.ext with rd := w.ext.rd.discard n.toNat } }) := rfl
theorem xWriteByte_apply {a : Nat} {s : Bytes} (h : w.heap a = .str s) (b : Int) : xWriteByte [.ptr a [], .int .u8 b] w =
    some (.ok .nil { w with heap := upd w.heap a (.str (s ++ [UInt8.ofInt b])) }) := by
  show (match w.heap a with
    | .str s => some (Out.ok Val.nil { w with heap := upd w.heap a (.str (s ++ [UInt8.ofInt b])) })
    | _ => none) = _
  rw [h]
theorem xBuffer_apply {a : Nat} {s : Bytes} (h : w.heap a = .str s) : xBuffer [.ptr a []] w = some (.ok (.str s) w) := by
  show (match w.heap a with
    | .str s => some (Out.ok (Val.str s) w)
    | _ => none) = _
  rw [h]
@[simp] theorem xParseUint_apply (s : Bytes) (b c : Val) : xParseUint [.str s, b, c] w = some (.ok (.tuple [.int .u64 (Octet.parseUint s 0), .nil]) w) := rfl
@[simp] theorem xErrorf_apply (f : Bytes) (args : List Val) : xErrorf (.str f :: args) w = some (.ok (.err f args) w) := rfl
theorem xParse5_apply {a : Nat} {be co : Bool} (h1 : (w.heap a).get .bestEffort = some (.bool be)) (h2 : (w.heap a).get .compliantMsg = some (.bool co)) (input : Val) :
    xParse5 [.ptr a [], input] w = match Rfc5424.parse1 ⟨be, co⟩ input.bytes with
      | none => some (.panic w)
      | some r => some (.ok (.tuple [msgVal r.msg, err5Val r.err]) w) := by
  show (match (w.heap a).get .bestEffort, (w.heap a).get .compliantMsg with
    | some (.bool be), some (.bool co) => match Rfc5424.parse1 ⟨be, co⟩ input.bytes with
      | none => some (Out.panic w)
      | some r => some (Out.ok (Val.tuple [msgVal r.msg, err5Val r.err]) w)
    | _, _ => none) = _
  rw [h1, h2]
theorem xEmit_apply {a : Nat} {m e : Val} (h1 : (w.heap a).get .Message = some m) (h2 : (w.heap a).get .Error = some e) :
    xEmit [.ptr a []] w = some (.ok (.tuple []) { w with ext := { w.ext with out := w.ext.out ++ [(m, e)] } }) := by
  show (match (w.heap a).get .Message, (w.heap a).get .Error with
    | some m, some e => some (Out.ok (Val.tuple []) { w with ext := { w.ext with out := w.ext.out ++ [(m, e)] } })
    | _, _ => none) = _
  rw [h1, h2]
end

/-! ## The structs -/

/-- `Scanner` (octetcounting/scanner.go:30-34) -/
def scanVal (s : Octet.Scanner) : Val :=
  .struct .octetcounting_Scanner [(.r, .ext (.obj 1)), (.msglen, .int .u64 s.msglen), (.ready, .bool s.ready)]

/-- the numbers of the token types (octetcounting/tokens.go:17-23) -/
def typNum : Octet.TokenType → Int
  | .ILLEGAL => 0
  | .EOF => 1
  | .WS => 2
  | .MSGLEN => 3
  | .SYSLOGMSG => 4

/-- a `[]byte`; it can be nil if it is empty -/
def LitRep (v : Val) (s : Bytes) : Prop := v = .str s ∨ (v = .nil ∧ s = [])

/-- `Token` (octetcounting/tokens.go:8-11) -/
def TokRep (v : Val) (t : Octet.Token) : Prop :=
  ∃ lit, v = .struct .octetcounting_Token [(.typ, .int .int (typNum t.typ)), (.lit, lit)] ∧ LitRep lit t.lit

/-- `parser` (octetcounting/parser.go:14-23): `mi` is the variable with the message parser, `last` the last token -/
def parserVal (mi : Nat) (last emit : Val) (p : Octet.Parser) : Val :=
  .struct .octetcounting_parser [(.msglen, .int .int 0), (.maxMessageLength, .int .int p.maxMessageLength), (.s, scanVal p.s), (.internal, .ptr mi []),
    (.last, last), (.stepback, .bool p.stepback), (.bestEffort, .bool p.bestEffort), (.emit, emit)]

/-- the field `emit`: the listener of the user, or the function literal of `NewParser` that does nothing (octetcounting/parser.go:26-27) -/
def octEmitVal : Option (List (Val × Val)) → Val
  | none => .ext .listener
  | some _ => .clo .octetcounting_NewParser_fn []

/-- the variable `a` has a parser in the state `p`, its message parser is in the variable `mi`; what the parser has reported is `out`. If `L` is `none` it
has the listener of the user, who got `out`; otherwise it has none, and what the listeners of other parsers have got is still what `L` says. -/
structure Rep (L : Option (List (Val × Val))) (w : W EO) (a mi : Nat) (p : Octet.Parser) (out : List (Val × Val)) : Prop where
  heap : ∃ last, w.heap a = parserVal mi last (octEmitVal L) p ∧ TokRep last p.last
  lt : a < w.next
  mlt : mi < w.next
  ne : mi ≠ a
  mbe : (w.heap mi).get .bestEffort = some (.bool p.internal.bestEffort)
  mco : (w.heap mi).get .compliantMsg = some (.bool p.internal.compliantMsg)
  mty : ∃ fs, w.heap mi = .struct .rfc5424_machine fs
  rd : w.ext.rd = p.s.r
  out : w.ext.out = L.getD out
  len : p.s.msglen < 2 ^ 64

end Verif.Mini
