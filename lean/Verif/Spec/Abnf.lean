import Verif.Bytes

/-!
# Specification: the ABNF of RFC 5424 (section 6), with the ABNF of UTF-8 (RFC 3629, section 4)

Every rule of the RFC is one definition, with the text of the rule above it. A rule denotes a set of byte strings. Nothing here refers
to the model of the code or to another specification, so that one can compare this file with the RFC and nothing else. What the RFC says
in comments next to the rules and in prose (ranges of numbers, no leading zeros in PRIVAL, every SD-ID at most once) is part of the
definitions and marked.
-/

namespace Verif.Spec.Abnf

/-- a rule: a set of byte strings -/
abbrev Rule := Bytes → Prop

/-- `A B` -/
def Rule.seq (A B : Rule) : Rule := fun w => ∃ u v, w = u ++ v ∧ A u ∧ B v
/-- `A / B` -/
def Rule.alt (A B : Rule) : Rule := fun w => A w ∨ B w
/-- `[A]` -/
def opt (A : Rule) : Rule := fun w => w = [] ∨ A w
/-- `lo*hiA` -/
def rep (lo hi : Nat) (A : Rule) : Rule := fun w => ∃ l : List Bytes, lo ≤ l.length ∧ l.length ≤ hi ∧ (∀ x ∈ l, A x) ∧ w = l.flatten
/-- `*A` -/
def many (A : Rule) : Rule := fun w => ∃ l : List Bytes, (∀ x ∈ l, A x) ∧ w = l.flatten
/-- `1*A` -/
def many1 (A : Rule) : Rule := fun w => ∃ l : List Bytes, l ≠ [] ∧ (∀ x ∈ l, A x) ∧ w = l.flatten
/-- `%dlo-hi` -/
def range (lo hi : Nat) : Rule := fun w => ∃ b : UInt8, w = [b] ∧ lo ≤ b.toNat ∧ b.toNat ≤ hi
/-- `%dn` -/
def chr (n : Nat) : Rule := range n n
/-- a rule with a comment: only the words of `A` for which `p` holds -/
def Rule.only (A : Rule) (p : Bytes → Prop) : Rule := fun w => A w ∧ p w

infixr:65 " ⬝ " => Rule.seq
infixr:60 " ∥ " => Rule.alt

/-- the number a string of decimal digits stands for -/
def number (w : Bytes) : Nat := w.foldl (fun n b => 10 * n + (b.toNat - 48)) 0

/-! ## Characters -/

/-- `OCTET = %d00-255` -/
def OCTET : Rule := range 0 255
/-- `SP = %d32` -/
def SP : Rule := chr 32
/-- `PRINTUSASCII = %d33-126` -/
def PRINTUSASCII : Rule := range 33 126
/-- `NONZERO-DIGIT = %d49-57` -/
def NONZERO_DIGIT : Rule := range 49 57
/-- `DIGIT = %d48 / NONZERO-DIGIT` -/
def DIGIT : Rule := chr 48 ∥ NONZERO_DIGIT
/-- `NILVALUE = "-"` -/
def NILVALUE : Rule := chr 45

/-! ## UTF-8 (RFC 3629, section 4) -/

/-- `UTF8-tail = %x80-BF` -/
def UTF8_tail : Rule := range 0x80 0xBF
/-- `UTF8-1 = %x00-7F` -/
def UTF8_1 : Rule := range 0x00 0x7F
/-- `UTF8-2 = %xC2-DF UTF8-tail` -/
def UTF8_2 : Rule := range 0xC2 0xDF ⬝ UTF8_tail
/-- `UTF8-3 = %xE0 %xA0-BF UTF8-tail / %xE1-EC 2( UTF8-tail ) / %xED %x80-9F UTF8-tail / %xEE-EF 2( UTF8-tail )` -/
def UTF8_3 : Rule :=
  chr 0xE0 ⬝ range 0xA0 0xBF ⬝ UTF8_tail ∥ range 0xE1 0xEC ⬝ UTF8_tail ⬝ UTF8_tail ∥
  chr 0xED ⬝ range 0x80 0x9F ⬝ UTF8_tail ∥ range 0xEE 0xEF ⬝ UTF8_tail ⬝ UTF8_tail
/-- `UTF8-4 = %xF0 %x90-BF 2( UTF8-tail ) / %xF1-F3 3( UTF8-tail ) / %xF4 %x80-8F 2( UTF8-tail )` -/
def UTF8_4 : Rule :=
  chr 0xF0 ⬝ range 0x90 0xBF ⬝ UTF8_tail ⬝ UTF8_tail ∥ range 0xF1 0xF3 ⬝ UTF8_tail ⬝ UTF8_tail ⬝ UTF8_tail ∥
  chr 0xF4 ⬝ range 0x80 0x8F ⬝ UTF8_tail ⬝ UTF8_tail
/-- `UTF8-char = UTF8-1 / UTF8-2 / UTF8-3 / UTF8-4` -/
def UTF8_char : Rule := UTF8_1 ∥ UTF8_2 ∥ UTF8_3 ∥ UTF8_4
/-- `UTF-8-STRING = *OCTET ; UTF-8 string as specified in RFC 3629` -/
def UTF_8_STRING : Rule := many UTF8_char

/-! ## MSG -/

/-- `BOM = %xEF.BB.BF` -/
def BOM : Rule := chr 0xEF ⬝ chr 0xBB ⬝ chr 0xBF
/-- `MSG-UTF8 = BOM UTF-8-STRING` -/
def MSG_UTF8 : Rule := BOM ⬝ UTF_8_STRING
/-- `MSG-ANY = *OCTET ; not starting with BOM` -/
def MSG_ANY : Rule := (many OCTET).only fun w => ¬ ∃ u v, w = u ++ v ∧ BOM u
/-- `MSG = MSG-ANY / MSG-UTF8` -/
def MSG : Rule := MSG_ANY ∥ MSG_UTF8

/-! ## STRUCTURED-DATA -/

/-- `SD-NAME = 1*32PRINTUSASCII ; except '=', SP, ']', %d34 (")` -/
def SD_NAME : Rule := rep 1 32 (PRINTUSASCII.only fun w => w ≠ [61] ∧ w ≠ [32] ∧ w ≠ [93] ∧ w ≠ [34])
/-- `PARAM-VALUE = UTF-8-STRING ; characters '"', '\' and ']' MUST be escaped.` -/
def PARAM_VALUE : Rule :=
  many (chr 92 ⬝ (chr 34 ∥ chr 92 ∥ chr 93) ∥ UTF8_char.only fun w => w ≠ [34] ∧ w ≠ [92] ∧ w ≠ [93])
/-- `PARAM-NAME = SD-NAME` -/
def PARAM_NAME : Rule := SD_NAME
/-- `SD-ID = SD-NAME` -/
def SD_ID : Rule := SD_NAME
/-- `SD-PARAM = PARAM-NAME "=" %d34 PARAM-VALUE %d34` -/
def SD_PARAM : Rule := PARAM_NAME ⬝ chr 61 ⬝ chr 34 ⬝ PARAM_VALUE ⬝ chr 34
/-- `SD-ELEMENT = "[" SD-ID *(SP SD-PARAM) "]"`, the SD-ID being `id` -/
def SD_ELEMENT (id : Bytes) : Rule := chr 91 ⬝ SD_ID.only (· = id) ⬝ many (SP ⬝ SD_PARAM) ⬝ chr 93
/-- a sequence of SD-ELEMENTs with the given SD-IDs -/
def elements : List Bytes → Rule
  | [] => fun w => w = []
  | id :: ids => SD_ELEMENT id ⬝ elements ids
/-- `STRUCTURED-DATA = NILVALUE / 1*SD-ELEMENT`, and (section 6.3.2) "The same SD-ID MUST NOT exist more than once in a message." -/
def STRUCTURED_DATA : Rule := NILVALUE ∥ fun w => ∃ ids, ids ≠ [] ∧ ids.Nodup ∧ elements ids w

/-! ## HEADER -/

/-- `PRIVAL = 1*3DIGIT ; range 0 .. 191`, and (section 6.2.1) the value 0 is written with one zero, other values MUST NOT have leading zeros -/
def PRIVAL : Rule := (rep 1 3 DIGIT).only fun w => number w ≤ 191 ∧ (w.head? = some 48 → w = [48])
/-- `PRI = "<" PRIVAL ">"` -/
def PRI : Rule := chr 60 ⬝ PRIVAL ⬝ chr 62
/-- `VERSION = NONZERO-DIGIT 0*2DIGIT` -/
def VERSION : Rule := NONZERO_DIGIT ⬝ rep 0 2 DIGIT
/-- `HOSTNAME = NILVALUE / 1*255PRINTUSASCII` -/
def HOSTNAME : Rule := NILVALUE ∥ rep 1 255 PRINTUSASCII
/-- `APP-NAME = NILVALUE / 1*48PRINTUSASCII` -/
def APP_NAME : Rule := NILVALUE ∥ rep 1 48 PRINTUSASCII
/-- `PROCID = NILVALUE / 1*128PRINTUSASCII` -/
def PROCID : Rule := NILVALUE ∥ rep 1 128 PRINTUSASCII
/-- `MSGID = NILVALUE / 1*32PRINTUSASCII` -/
def MSGID : Rule := NILVALUE ∥ rep 1 32 PRINTUSASCII

/-- the year is a leap year -/
def leap (year : Nat) : Prop := year % 4 = 0 ∧ (year % 100 ≠ 0 ∨ year % 400 = 0)
instance (year : Nat) : Decidable (leap year) := inferInstanceAs (Decidable (_ ∧ _))
/-- the last day of the month -/
def lastDay (year month : Nat) : Nat :=
  if month = 2 then if leap year then 29 else 28 else if month = 4 ∨ month = 6 ∨ month = 9 ∨ month = 11 then 30 else 31

/-- `DATE-FULLYEAR = 4DIGIT` -/
def DATE_FULLYEAR : Rule := DIGIT ⬝ DIGIT ⬝ DIGIT ⬝ DIGIT
/-- `DATE-MONTH = 2DIGIT ; 01-12` -/
def DATE_MONTH : Rule := (DIGIT ⬝ DIGIT).only fun w => 1 ≤ number w ∧ number w ≤ 12
/-- `DATE-MDAY = 2DIGIT ; 01-28, 01-29, 01-30, 01-31 based on month/year` -/
def DATE_MDAY (year month : Bytes) : Rule := (DIGIT ⬝ DIGIT).only fun w => 1 ≤ number w ∧ number w ≤ lastDay (number year) (number month)
/-- `FULL-DATE = DATE-FULLYEAR "-" DATE-MONTH "-" DATE-MDAY` -/
def FULL_DATE : Rule := fun w => ∃ year month,
  (DATE_FULLYEAR.only (· = year) ⬝ chr 45 ⬝ DATE_MONTH.only (· = month) ⬝ chr 45 ⬝ DATE_MDAY year month) w
/-- `TIME-HOUR = 2DIGIT ; 00-23` -/
def TIME_HOUR : Rule := (DIGIT ⬝ DIGIT).only fun w => number w ≤ 23
/-- `TIME-MINUTE = 2DIGIT ; 00-59` -/
def TIME_MINUTE : Rule := (DIGIT ⬝ DIGIT).only fun w => number w ≤ 59
/-- `TIME-SECOND = 2DIGIT ; 00-59` -/
def TIME_SECOND : Rule := (DIGIT ⬝ DIGIT).only fun w => number w ≤ 59
/-- `TIME-SECFRAC = "." 1*6DIGIT` -/
def TIME_SECFRAC : Rule := chr 46 ⬝ rep 1 6 DIGIT
/-- `TIME-NUMOFFSET = ("+" / "-") TIME-HOUR ":" TIME-MINUTE` -/
def TIME_NUMOFFSET : Rule := (chr 43 ∥ chr 45) ⬝ TIME_HOUR ⬝ chr 58 ⬝ TIME_MINUTE
/-- `TIME-OFFSET = "Z" / TIME-NUMOFFSET` (section 6.2.3: upper case) -/
def TIME_OFFSET : Rule := chr 90 ∥ TIME_NUMOFFSET
/-- `PARTIAL-TIME = TIME-HOUR ":" TIME-MINUTE ":" TIME-SECOND [TIME-SECFRAC]` -/
def PARTIAL_TIME : Rule := TIME_HOUR ⬝ chr 58 ⬝ TIME_MINUTE ⬝ chr 58 ⬝ TIME_SECOND ⬝ opt TIME_SECFRAC
/-- `FULL-TIME = PARTIAL-TIME TIME-OFFSET` -/
def FULL_TIME : Rule := PARTIAL_TIME ⬝ TIME_OFFSET
/-- `TIMESTAMP = NILVALUE / FULL-DATE "T" FULL-TIME` (section 6.2.3: upper case) -/
def TIMESTAMP : Rule := NILVALUE ∥ FULL_DATE ⬝ chr 84 ⬝ FULL_TIME

/-- `HEADER = PRI VERSION SP TIMESTAMP SP HOSTNAME SP APP-NAME SP PROCID SP MSGID` -/
def HEADER : Rule := PRI ⬝ VERSION ⬝ SP ⬝ TIMESTAMP ⬝ SP ⬝ HOSTNAME ⬝ SP ⬝ APP_NAME ⬝ SP ⬝ PROCID ⬝ SP ⬝ MSGID
/-- `SYSLOG-MSG = HEADER SP STRUCTURED-DATA [SP MSG]` -/
def SYSLOG_MSG : Rule := HEADER ⬝ SP ⬝ STRUCTURED_DATA ⬝ opt (SP ⬝ MSG)

/-- `SYSLOG-MSG` with `*OCTET` in the place of `MSG` -/
def SYSLOG_MSG_OCTETS : Rule := HEADER ⬝ SP ⬝ STRUCTURED_DATA ⬝ opt (SP ⬝ many OCTET)

/-! ## Octet counting (RFC 6587, section 3.4.1; RFC 5425, section 4.3) -/

/-- `MSG-LEN = NONZERO-DIGIT *DIGIT`: "MSG-LEN is the octet count of the SYSLOG-MSG in the SYSLOG-FRAME." -/
def MSG_LEN (m : Bytes) : Rule := (NONZERO_DIGIT ⬝ many DIGIT).only fun w => number w = m.length
/-- `SYSLOG-FRAME = MSG-LEN SP SYSLOG-MSG`, the SYSLOG-MSG being `m` -/
def SYSLOG_FRAME (m : Bytes) : Rule := MSG_LEN m ⬝ SP ⬝ SYSLOG_MSG.only (· = m)
/-- `TCP-DATA = *SYSLOG-FRAME`, the SYSLOG-MSGs being those of the list -/
def TCP_DATA : List Bytes → Rule
  | [] => fun w => w = []
  | m :: ms => SYSLOG_FRAME m ⬝ TCP_DATA ms

end Verif.Spec.Abnf
