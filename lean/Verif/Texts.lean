import Verif.Rfc3164.Machine
import Verif.Octet.Model
import Verif.Spec.Rfc5424

/-!
# The texts of the errors

`err.Error()` of the errors the parsers return or pass to a listener. `%d` is `dec` (decimal digits without leading zeros).
-/

namespace Verif.Texts
open Verif.Spec (dec)

/-- The column suffix: `ColumnPositionTemplate` (rfc5424/machine.go:12), also part of the templates at rfc3164/machine.go:12-20. -/
def col (n : Nat) : Bytes := ascii " [col " ++ dec n ++ ascii "]"

/-- The text of the error of `time.Parse` on `value`. After the automaton accepted the digits only the check of the day against the length
of the month can fail; `value` consists of characters that `time.quote` leaves alone. -/
def timeError (value : Bytes) : Bytes := ascii "parsing time \"" ++ value ++ ascii "\": day out of range"

/-- The exported constants of rfc5424/machine.go:14-47; `timeParse` has none. -/
def rfc5424Const : Rfc5424.ErrKind → Option Bytes
  | .prival => some (ascii "expecting a priority value in the range 1-191 or equal to 0")
  | .pri => some (ascii "expecting a priority value within angle brackets")
  | .version => some (ascii "expecting a version value in the range 1-999")
  | .timestamp => some (ascii "expecting a RFC3339MICRO timestamp or a nil value")
  | .hostname => some (ascii "expecting an hostname (from 1 to max 255 US-ASCII characters) or a nil value")
  | .appname => some (ascii "expecting an app-name (from 1 to max 48 US-ASCII characters) or a nil value")
  | .procid => some (ascii "expecting a procid (from 1 to max 128 US-ASCII characters) or a nil value")
  | .msgid => some (ascii "expecting a msgid (from 1 to max 32 US-ASCII characters) or a nil value")
  | .structuredData => some (ascii
      "expecting a structured data section containing one or more elements (`[id( key=\"value\")*]+`) or a nil value")
  | .sdId => some (ascii
      "expecting a structured data element id (from 1 to max 32 US-ASCII characters; except `=`, ` `, `]`, and `\"`")
  | .sdIdDup => some (ascii "duplicate structured data element id")
  | .sdParam => some (ascii ("expecting a structured data parameter (`key=\"value\"`, both part from 1 to max 32 US-ASCII characters; " ++
      "key cannot contain `=`, ` `, `]`, and `\"`, while value cannot contain `]`, backslash, and `\"` unless escaped)"))
  | .msg => some (ascii "expecting a free-form optional message in UTF-8 (starting with or without BOM)")
  | .msgNotCompliant => some (ascii ("expecting a free-form optional message in UTF-8 (starting with or without BOM)" ++
      " or a free-form optional message in any encoding (starting without BOM)"))
  | .escape => some (ascii "expecting chars `]`, `\"`, and `\\` to be escaped within param value")
  | .parse => some (ascii "parsing error")
  | .timeParse => none

/-- `Error()` of an error of rfc5424 `Parse(input)`: `fmt.Errorf(ErrX+ColumnPositionTemplate, m.p)`, or `fmt.Errorf("%s [col %d]", e, m.p)`
with the error of `time.Parse` (rfc5424/machine.go:1643-1645). Simplification: `m.text()` at that point is written as what stands between the
first space and `m.p`. -/
def rfc5424Text (input : Bytes) (e : Rfc5424.Err) : Bytes :=
  (match rfc5424Const e.kind with
    | some c => c
    | none => timeError (((input.take e.col).dropWhile (· ≠ 32)).drop 1)) ++ col e.col

/-- The templates of rfc3164/machine.go:11-21 without the column (`errParse` is not used by the automaton). -/
def rfc3164Const : Rfc3164.ErrKind → Option Bytes
  | .prival => some (ascii "expecting a priority value in the range 1-191 or equal to 0")
  | .pri => some (ascii "expecting a priority value within angle brackets")
  | .timestamp => some (ascii "expecting a Stamp timestamp")
  | .rfc3339 => some (ascii "expecting a Stamp or a RFC3339 timestamp")
  | .hostname => some (ascii "expecting an hostname (from 1 to max 255 US-ASCII characters)")
  | .tag => some (ascii "expecting an alphanumeric tag (max 32 characters)")
  | .contentStart => some (ascii "expecting a content part starting with a non-alphanumeric character")
  | .content => some (ascii "expecting a content part composed by visible characters only")
  | .timeParse => none

/-- `Error()` of an error of rfc3164 `Parse(input)`. Simplification: as `rfc5424Text`; the timestamp follows the first `>`. -/
def rfc3164Text (input : Bytes) (e : Rfc3164.Err) : Bytes :=
  (match rfc3164Const e.kind with
    | some c => c
    | none => timeError (((input.take e.col).dropWhile (· ≠ 62)).drop 1)) ++ col e.col

/-! ## `octetcounting/tokens.go` -/

/-- the `iota` values (octetcounting/tokens.go:17-23) -/
def tokenNumber : Octet.TokenType → Nat
  | .ILLEGAL => 0 | .EOF => 1 | .WS => 2 | .MSGLEN => 3 | .SYSLOGMSG => 4

/-- `tokentypename` (octetcounting/tokens.go:35) -/
def tokentypename : Bytes := ascii "ILLEGALEOFWSMSGLENSYSLOGMSG"

/-- `tokentypeindex` (octetcounting/tokens.go:37) -/
def tokentypeindex : List Nat := [0, 7, 10, 12, 18, 27]

/-- `TokenType.String` (octetcounting/tokens.go:40-45) for any `int` value -/
def tokenTypeString (i : Int) : Bytes :=
  if i < 0 ∨ i ≥ (tokentypeindex.length : Int) - 1 then
    ascii "TokenType(" ++ (if i < 0 then 45 :: dec i.natAbs else dec i.toNat) ++ ascii ")"
  else
    let a := tokentypeindex.getD i.toNat 0
    let b := tokentypeindex.getD (i.toNat + 1) 0
    (tokentypename.drop a).take (b - a)

/-- `Token.String` (octetcounting/tokens.go:26-33) -/
def tokenString (t : Octet.Token) : Bytes :=
  match t.typ with
  | .WS | .EOF => tokenTypeString (tokenNumber t.typ)
  | _ => tokenTypeString (tokenNumber t.typ) ++ ascii "(" ++ t.lit ++ ascii ")"

/-- `%d` of an `int` -/
def intString (i : Int) : Bytes := if i < 0 then 45 :: dec i.natAbs else dec i.toNat

/-- `Error()` of the framing errors (octetcounting/parser.go:84, 91, 99, 106); `input` is the message that was parsed, for the errors of the
message parser. -/
def octetText (input : Bytes) : Octet.Error → Bytes
  | .message e => rfc5424Text input e
  | .notMsgLen tok => ascii "found " ++ tokenString tok ++ ascii ", expecting a " ++ tokenTypeString (tokenNumber .MSGLEN)
  | .tooLong n max => ascii "message too long to parse. was size " ++ dec n ++ ascii ", max length " ++ intString max
  | .notWS tok => ascii "found " ++ tokenString tok ++ ascii ", expecting a " ++ tokenTypeString (tokenNumber .WS)
  | .notMsg tok n => ascii "found " ++ tokenString tok ++ ascii " after \"" ++ tok.lit ++ ascii "\", expecting a " ++
      tokenTypeString (tokenNumber .SYSLOGMSG) ++ ascii " containing " ++ dec n ++ ascii " octets"

end Verif.Texts
